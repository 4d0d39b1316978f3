/-!
# The statements of `NS(tricub_construct_coefs)`

Transcription of `/repo/sixtracklib/common/be_tricub/coefficients.h:42-1041`, one entry
per statement, in the order of the source:

* `.set i k j` is `coefs[i] = k * b[j]` (`-(k * b[j])` for negative `k`),
* `.add i k j` is `coefs[i] += k * b[j]`,
* `.sub i k j` is `coefs[i] -= k * b[j]`,

with the entries of `tri_consts` (coefficients.h:40) put in for `k`.
-/

namespace SixTrack.Tricub

/-- A statement of the function. -/
inductive Stmt
  | set (i : Nat) (k : Int) (j : Nat)
  | add (i : Nat) (k : Int) (j : Nat)
  | sub (i : Nat) (k : Int) (j : Nat)
  deriving DecidableEq, Repr

/-- Lines 42-141. -/
def stmts0 : List Stmt := [
  .set 0 1 0, .set 2 (-3) 0, .set 3 2 0, .set 8 (-3) 0, .set 10 9 0, .set 11 (-6) 0, .set 12 2 0,
  .set 14 (-6) 0, .set 15 4 0, .set 32 (-3) 0, .set 34 9 0, .set 35 (-6) 0, .set 40 9 0,
  .set 42 (-27) 0, .set 43 18 0, .set 44 (-6) 0, .set 46 18 0, .set 47 (-12) 0, .set 48 2 0,
  .set 50 (-6) 0, .set 51 4 0, .set 56 (-6) 0, .set 58 18 0, .set 59 (-12) 0, .set 60 4 0,
  .set 62 (-12) 0, .set 63 8 0, .add 2 3 1, .sub 3 2 1, .sub 10 9 1, .add 11 6 1, .add 14 6 1,
  .sub 15 4 1, .sub 34 9 1, .add 35 6 1, .add 42 27 1, .sub 43 18 1, .sub 46 18 1, .add 47 12 1,
  .add 50 6 1, .sub 51 4 1, .sub 58 18 1, .add 59 12 1, .add 62 12 1, .sub 63 8 1, .add 8 3 2,
  .sub 10 9 2, .add 11 6 2, .sub 12 2 2, .add 14 6 2, .sub 15 4 2, .sub 40 9 2, .add 42 27 2,
  .sub 43 18 2, .add 44 6 2, .sub 46 18 2, .add 47 12 2, .add 56 6 2, .sub 58 18 2, .add 59 12 2,
  .sub 60 4 2, .add 62 12 2, .sub 63 8 2, .add 10 9 3, .sub 11 6 3, .sub 14 6 3, .add 15 4 3,
  .sub 42 27 3, .add 43 18 3, .add 46 18 3, .sub 47 12 3, .add 58 18 3, .sub 59 12 3,
  .sub 62 12 3, .add 63 8 3, .add 32 3 4, .sub 34 9 4, .add 35 6 4, .sub 40 9 4, .add 42 27 4,
  .sub 43 18 4, .add 44 6 4, .sub 46 18 4, .add 47 12 4, .sub 48 2 4, .add 50 6 4, .sub 51 4 4,
  .add 56 6 4, .sub 58 18 4, .add 59 12 4, .sub 60 4 4, .add 62 12 4, .sub 63 8 4, .add 34 9 5,
  .sub 35 6 5, .sub 42 27 5, .add 43 18 5, .add 46 18 5, .sub 47 12 5, .sub 50 6 5]

/-- Lines 142-241. -/
def stmts1 : List Stmt := [
  .add 51 4 5, .add 58 18 5, .sub 59 12 5, .sub 62 12 5, .add 63 8 5, .add 40 9 6, .sub 42 27 6,
  .add 43 18 6, .sub 44 6 6, .add 46 18 6, .sub 47 12 6, .sub 56 6 6, .add 58 18 6, .sub 59 12 6,
  .add 60 4 6, .sub 62 12 6, .add 63 8 6, .add 42 27 7, .sub 43 18 7, .sub 46 18 7, .add 47 12 7,
  .sub 58 18 7, .add 59 12 7, .add 62 12 7, .sub 63 8 7, .set 1 1 8, .sub 2 2 8, .add 3 1 8,
  .set 9 (-3) 8, .add 10 6 8, .sub 11 3 8, .set 13 2 8, .sub 14 4 8, .add 15 2 8, .set 33 (-3) 8,
  .add 34 6 8, .sub 35 3 8, .set 41 9 8, .sub 42 18 8, .add 43 9 8, .set 45 (-6) 8, .add 46 12 8,
  .sub 47 6 8, .set 49 2 8, .sub 50 4 8, .add 51 2 8, .set 57 (-6) 8, .add 58 12 8, .sub 59 6 8,
  .set 61 4 8, .sub 62 8 8, .add 63 4 8, .sub 2 1 9, .add 3 1 9, .add 10 3 9, .sub 11 3 9,
  .sub 14 2 9, .add 15 2 9, .add 34 3 9, .sub 35 3 9, .sub 42 9 9, .add 43 9 9, .add 46 6 9,
  .sub 47 6 9, .sub 50 2 9, .add 51 2 9, .add 58 6 9, .sub 59 6 9, .sub 62 4 9, .add 63 4 9,
  .add 9 3 10, .sub 10 6 10, .add 11 3 10, .sub 13 2 10, .add 14 4 10, .sub 15 2 10, .sub 41 9 10,
  .add 42 18 10, .sub 43 9 10, .add 45 6 10, .sub 46 12 10, .add 47 6 10, .add 57 6 10,
  .sub 58 12 10, .add 59 6 10, .sub 61 4 10, .add 62 8 10, .sub 63 4 10, .sub 10 3 11,
  .add 11 3 11, .add 14 2 11, .sub 15 2 11, .add 42 9 11, .sub 43 9 11, .sub 46 6 11,
  .add 47 6 11, .sub 58 6 11, .add 59 6 11, .add 62 4 11, .sub 63 4 11]

/-- Lines 242-341. -/
def stmts2 : List Stmt := [
  .add 33 3 12, .sub 34 6 12, .add 35 3 12, .sub 41 9 12, .add 42 18 12, .sub 43 9 12,
  .add 45 6 12, .sub 46 12 12, .add 47 6 12, .sub 49 2 12, .add 50 4 12, .sub 51 2 12,
  .add 57 6 12, .sub 58 12 12, .add 59 6 12, .sub 61 4 12, .add 62 8 12, .sub 63 4 12,
  .sub 34 3 13, .add 35 3 13, .add 42 9 13, .sub 43 9 13, .sub 46 6 13, .add 47 6 13,
  .add 50 2 13, .sub 51 2 13, .sub 58 6 13, .add 59 6 13, .add 62 4 13, .sub 63 4 13,
  .add 41 9 14, .sub 42 18 14, .add 43 9 14, .sub 45 6 14, .add 46 12 14, .sub 47 6 14,
  .sub 57 6 14, .add 58 12 14, .sub 59 6 14, .add 61 4 14, .sub 62 8 14, .add 63 4 14,
  .sub 42 9 15, .add 43 9 15, .add 46 6 15, .sub 47 6 15, .add 58 6 15, .sub 59 6 15,
  .sub 62 4 15, .add 63 4 15, .set 4 1 16, .set 6 (-3) 16, .set 7 2 16, .sub 8 2 16, .add 10 6 16,
  .sub 11 4 16, .add 12 1 16, .sub 14 3 16, .add 15 2 16, .set 36 (-3) 16, .set 38 9 16,
  .set 39 (-6) 16, .add 40 6 16, .sub 42 18 16, .add 43 12 16, .sub 44 3 16, .add 46 9 16,
  .sub 47 6 16, .set 52 2 16, .set 54 (-6) 16, .set 55 4 16, .sub 56 4 16, .add 58 12 16,
  .sub 59 8 16, .add 60 2 16, .sub 62 6 16, .add 63 4 16, .add 6 3 17, .sub 7 2 17, .sub 10 6 17,
  .add 11 4 17, .add 14 3 17, .sub 15 2 17, .sub 38 9 17, .add 39 6 17, .add 42 18 17,
  .sub 43 12 17, .sub 46 9 17, .add 47 6 17, .add 54 6 17, .sub 55 4 17, .sub 58 12 17,
  .add 59 8 17, .add 62 6 17, .sub 63 4 17, .sub 8 1 18, .add 10 3 18, .sub 11 2 18, .add 12 1 18,
  .sub 14 3 18]

/-- Lines 342-441. -/
def stmts3 : List Stmt := [
  .add 15 2 18, .add 40 3 18, .sub 42 9 18, .add 43 6 18, .sub 44 3 18, .add 46 9 18,
  .sub 47 6 18, .sub 56 2 18, .add 58 6 18, .sub 59 4 18, .add 60 2 18, .sub 62 6 18,
  .add 63 4 18, .sub 10 3 19, .add 11 2 19, .add 14 3 19, .sub 15 2 19, .add 42 9 19,
  .sub 43 6 19, .sub 46 9 19, .add 47 6 19, .sub 58 6 19, .add 59 4 19, .add 62 6 19,
  .sub 63 4 19, .add 36 3 20, .sub 38 9 20, .add 39 6 20, .sub 40 6 20, .add 42 18 20,
  .sub 43 12 20, .add 44 3 20, .sub 46 9 20, .add 47 6 20, .sub 52 2 20, .add 54 6 20,
  .sub 55 4 20, .add 56 4 20, .sub 58 12 20, .add 59 8 20, .sub 60 2 20, .add 62 6 20,
  .sub 63 4 20, .add 38 9 21, .sub 39 6 21, .sub 42 18 21, .add 43 12 21, .add 46 9 21,
  .sub 47 6 21, .sub 54 6 21, .add 55 4 21, .add 58 12 21, .sub 59 8 21, .sub 62 6 21,
  .add 63 4 21, .sub 40 3 22, .add 42 9 22, .sub 43 6 22, .add 44 3 22, .sub 46 9 22,
  .add 47 6 22, .add 56 2 22, .sub 58 6 22, .add 59 4 22, .sub 60 2 22, .add 62 6 22,
  .sub 63 4 22, .sub 42 9 23, .add 43 6 23, .add 46 9 23, .sub 47 6 23, .add 58 6 23,
  .sub 59 4 23, .sub 62 6 23, .add 63 4 23, .set 16 1 24, .set 18 (-3) 24, .set 19 2 24,
  .set 24 (-3) 24, .set 26 9 24, .set 27 (-6) 24, .set 28 2 24, .set 30 (-6) 24, .set 31 4 24,
  .sub 32 2 24, .add 34 6 24, .sub 35 4 24, .add 40 6 24, .sub 42 18 24, .add 43 12 24,
  .sub 44 4 24, .add 46 12 24, .sub 47 8 24, .add 48 1 24, .sub 50 3 24, .add 51 2 24,
  .sub 56 3 24, .add 58 9 24, .sub 59 6 24, .add 60 2 24]

/-- Lines 442-541. -/
def stmts4 : List Stmt := [
  .sub 62 6 24, .add 63 4 24, .add 18 3 25, .sub 19 2 25, .sub 26 9 25, .add 27 6 25,
  .add 30 6 25, .sub 31 4 25, .sub 34 6 25, .add 35 4 25, .add 42 18 25, .sub 43 12 25,
  .sub 46 12 25, .add 47 8 25, .add 50 3 25, .sub 51 2 25, .sub 58 9 25, .add 59 6 25,
  .add 62 6 25, .sub 63 4 25, .add 24 3 26, .sub 26 9 26, .add 27 6 26, .sub 28 2 26,
  .add 30 6 26, .sub 31 4 26, .sub 40 6 26, .add 42 18 26, .sub 43 12 26, .add 44 4 26,
  .sub 46 12 26, .add 47 8 26, .add 56 3 26, .sub 58 9 26, .add 59 6 26, .sub 60 2 26,
  .add 62 6 26, .sub 63 4 26, .add 26 9 27, .sub 27 6 27, .sub 30 6 27, .add 31 4 27,
  .sub 42 18 27, .add 43 12 27, .add 46 12 27, .sub 47 8 27, .add 58 9 27, .sub 59 6 27,
  .sub 62 6 27, .add 63 4 27, .sub 32 1 28, .add 34 3 28, .sub 35 2 28, .add 40 3 28,
  .sub 42 9 28, .add 43 6 28, .sub 44 2 28, .add 46 6 28, .sub 47 4 28, .add 48 1 28,
  .sub 50 3 28, .add 51 2 28, .sub 56 3 28, .add 58 9 28, .sub 59 6 28, .add 60 2 28,
  .sub 62 6 28, .add 63 4 28, .sub 34 3 29, .add 35 2 29, .add 42 9 29, .sub 43 6 29,
  .sub 46 6 29, .add 47 4 29, .add 50 3 29, .sub 51 2 29, .sub 58 9 29, .add 59 6 29,
  .add 62 6 29, .sub 63 4 29, .sub 40 3 30, .add 42 9 30, .sub 43 6 30, .add 44 2 30,
  .sub 46 6 30, .add 47 4 30, .add 56 3 30, .sub 58 9 30, .add 59 6 30, .sub 60 2 30,
  .add 62 6 30, .sub 63 4 30, .sub 42 9 31, .add 43 6 31, .add 46 6 31, .sub 47 4 31,
  .add 58 9 31, .sub 59 6 31, .sub 62 6 31, .add 63 4 31]

/-- Lines 542-641. -/
def stmts5 : List Stmt := [
  .set 5 1 32, .sub 6 2 32, .add 7 1 32, .sub 9 2 32, .add 10 4 32, .sub 11 2 32, .add 13 1 32,
  .sub 14 2 32, .add 15 1 32, .set 37 (-3) 32, .add 38 6 32, .sub 39 3 32, .add 41 6 32,
  .sub 42 12 32, .add 43 6 32, .sub 45 3 32, .add 46 6 32, .sub 47 3 32, .set 53 2 32,
  .sub 54 4 32, .add 55 2 32, .sub 57 4 32, .add 58 8 32, .sub 59 4 32, .add 61 2 32,
  .sub 62 4 32, .add 63 2 32, .sub 6 1 33, .add 7 1 33, .add 10 2 33, .sub 11 2 33, .sub 14 1 33,
  .add 15 1 33, .add 38 3 33, .sub 39 3 33, .sub 42 6 33, .add 43 6 33, .add 46 3 33,
  .sub 47 3 33, .sub 54 2 33, .add 55 2 33, .add 58 4 33, .sub 59 4 33, .sub 62 2 33,
  .add 63 2 33, .sub 9 1 34, .add 10 2 34, .sub 11 1 34, .add 13 1 34, .sub 14 2 34, .add 15 1 34,
  .add 41 3 34, .sub 42 6 34, .add 43 3 34, .sub 45 3 34, .add 46 6 34, .sub 47 3 34,
  .sub 57 2 34, .add 58 4 34, .sub 59 2 34, .add 61 2 34, .sub 62 4 34, .add 63 2 34,
  .add 10 1 35, .sub 11 1 35, .sub 14 1 35, .add 15 1 35, .sub 42 3 35, .add 43 3 35,
  .add 46 3 35, .sub 47 3 35, .add 58 2 35, .sub 59 2 35, .sub 62 2 35, .add 63 2 35,
  .add 37 3 36, .sub 38 6 36, .add 39 3 36, .sub 41 6 36, .add 42 12 36, .sub 43 6 36,
  .add 45 3 36, .sub 46 6 36, .add 47 3 36, .sub 53 2 36, .add 54 4 36, .sub 55 2 36,
  .add 57 4 36, .sub 58 8 36, .add 59 4 36, .sub 61 2 36, .add 62 4 36, .sub 63 2 36,
  .sub 38 3 37, .add 39 3 37, .add 42 6 37, .sub 43 6 37, .sub 46 3 37, .add 47 3 37,
  .add 54 2 37]

/-- Lines 642-741. -/
def stmts6 : List Stmt := [
  .sub 55 2 37, .sub 58 4 37, .add 59 4 37, .add 62 2 37, .sub 63 2 37, .sub 41 3 38,
  .add 42 6 38, .sub 43 3 38, .add 45 3 38, .sub 46 6 38, .add 47 3 38, .add 57 2 38,
  .sub 58 4 38, .add 59 2 38, .sub 61 2 38, .add 62 4 38, .sub 63 2 38, .add 42 3 39,
  .sub 43 3 39, .sub 46 3 39, .add 47 3 39, .sub 58 2 39, .add 59 2 39, .add 62 2 39,
  .sub 63 2 39, .set 17 1 40, .sub 18 2 40, .add 19 1 40, .set 25 (-3) 40, .add 26 6 40,
  .sub 27 3 40, .set 29 2 40, .sub 30 4 40, .add 31 2 40, .sub 33 2 40, .add 34 4 40,
  .sub 35 2 40, .add 41 6 40, .sub 42 12 40, .add 43 6 40, .sub 45 4 40, .add 46 8 40,
  .sub 47 4 40, .add 49 1 40, .sub 50 2 40, .add 51 1 40, .sub 57 3 40, .add 58 6 40,
  .sub 59 3 40, .add 61 2 40, .sub 62 4 40, .add 63 2 40, .sub 18 1 41, .add 19 1 41,
  .add 26 3 41, .sub 27 3 41, .sub 30 2 41, .add 31 2 41, .add 34 2 41, .sub 35 2 41,
  .sub 42 6 41, .add 43 6 41, .add 46 4 41, .sub 47 4 41, .sub 50 1 41, .add 51 1 41,
  .add 58 3 41, .sub 59 3 41, .sub 62 2 41, .add 63 2 41, .add 25 3 42, .sub 26 6 42,
  .add 27 3 42, .sub 29 2 42, .add 30 4 42, .sub 31 2 42, .sub 41 6 42, .add 42 12 42,
  .sub 43 6 42, .add 45 4 42, .sub 46 8 42, .add 47 4 42, .add 57 3 42, .sub 58 6 42,
  .add 59 3 42, .sub 61 2 42, .add 62 4 42, .sub 63 2 42, .sub 26 3 43, .add 27 3 43,
  .add 30 2 43, .sub 31 2 43, .add 42 6 43, .sub 43 6 43, .sub 46 4 43, .add 47 4 43,
  .sub 58 3 43, .add 59 3 43, .add 62 2 43, .sub 63 2 43]

/-- Lines 742-841. -/
def stmts7 : List Stmt := [
  .sub 33 1 44, .add 34 2 44, .sub 35 1 44, .add 41 3 44, .sub 42 6 44, .add 43 3 44,
  .sub 45 2 44, .add 46 4 44, .sub 47 2 44, .add 49 1 44, .sub 50 2 44, .add 51 1 44,
  .sub 57 3 44, .add 58 6 44, .sub 59 3 44, .add 61 2 44, .sub 62 4 44, .add 63 2 44,
  .add 34 1 45, .sub 35 1 45, .sub 42 3 45, .add 43 3 45, .add 46 2 45, .sub 47 2 45,
  .sub 50 1 45, .add 51 1 45, .add 58 3 45, .sub 59 3 45, .sub 62 2 45, .add 63 2 45,
  .sub 41 3 46, .add 42 6 46, .sub 43 3 46, .add 45 2 46, .sub 46 4 46, .add 47 2 46,
  .add 57 3 46, .sub 58 6 46, .add 59 3 46, .sub 61 2 46, .add 62 4 46, .sub 63 2 46,
  .add 42 3 47, .sub 43 3 47, .sub 46 2 47, .add 47 2 47, .sub 58 3 47, .add 59 3 47,
  .add 62 2 47, .sub 63 2 47, .set 20 1 48, .set 22 (-3) 48, .set 23 2 48, .sub 24 2 48,
  .add 26 6 48, .sub 27 4 48, .add 28 1 48, .sub 30 3 48, .add 31 2 48, .sub 36 2 48,
  .add 38 6 48, .sub 39 4 48, .add 40 4 48, .sub 42 12 48, .add 43 8 48, .sub 44 2 48,
  .add 46 6 48, .sub 47 4 48, .add 52 1 48, .sub 54 3 48, .add 55 2 48, .sub 56 2 48,
  .add 58 6 48, .sub 59 4 48, .add 60 1 48, .sub 62 3 48, .add 63 2 48, .add 22 3 49,
  .sub 23 2 49, .sub 26 6 49, .add 27 4 49, .add 30 3 49, .sub 31 2 49, .sub 38 6 49,
  .add 39 4 49, .add 42 12 49, .sub 43 8 49, .sub 46 6 49, .add 47 4 49, .add 54 3 49,
  .sub 55 2 49, .sub 58 6 49, .add 59 4 49, .add 62 3 49, .sub 63 2 49, .sub 24 1 50,
  .add 26 3 50, .sub 27 2 50, .add 28 1 50, .sub 30 3 50]

/-- Lines 842-941. -/
def stmts8 : List Stmt := [
  .add 31 2 50, .add 40 2 50, .sub 42 6 50, .add 43 4 50, .sub 44 2 50, .add 46 6 50,
  .sub 47 4 50, .sub 56 1 50, .add 58 3 50, .sub 59 2 50, .add 60 1 50, .sub 62 3 50,
  .add 63 2 50, .sub 26 3 51, .add 27 2 51, .add 30 3 51, .sub 31 2 51, .add 42 6 51,
  .sub 43 4 51, .sub 46 6 51, .add 47 4 51, .sub 58 3 51, .add 59 2 51, .add 62 3 51,
  .sub 63 2 51, .sub 36 1 52, .add 38 3 52, .sub 39 2 52, .add 40 2 52, .sub 42 6 52,
  .add 43 4 52, .sub 44 1 52, .add 46 3 52, .sub 47 2 52, .add 52 1 52, .sub 54 3 52,
  .add 55 2 52, .sub 56 2 52, .add 58 6 52, .sub 59 4 52, .add 60 1 52, .sub 62 3 52,
  .add 63 2 52, .sub 38 3 53, .add 39 2 53, .add 42 6 53, .sub 43 4 53, .sub 46 3 53,
  .add 47 2 53, .add 54 3 53, .sub 55 2 53, .sub 58 6 53, .add 59 4 53, .add 62 3 53,
  .sub 63 2 53, .add 40 1 54, .sub 42 3 54, .add 43 2 54, .sub 44 1 54, .add 46 3 54,
  .sub 47 2 54, .sub 56 1 54, .add 58 3 54, .sub 59 2 54, .add 60 1 54, .sub 62 3 54,
  .add 63 2 54, .add 42 3 55, .sub 43 2 55, .sub 46 3 55, .add 47 2 55, .sub 58 3 55,
  .add 59 2 55, .add 62 3 55, .sub 63 2 55, .set 21 1 56, .sub 22 2 56, .add 23 1 56,
  .sub 25 2 56, .add 26 4 56, .sub 27 2 56, .add 29 1 56, .sub 30 2 56, .add 31 1 56,
  .sub 37 2 56, .add 38 4 56, .sub 39 2 56, .add 41 4 56, .sub 42 8 56, .add 43 4 56,
  .sub 45 2 56, .add 46 4 56, .sub 47 2 56, .add 53 1 56, .sub 54 2 56, .add 55 1 56,
  .sub 57 2 56, .add 58 4 56, .sub 59 2 56, .add 61 1 56]

/-- Lines 942-1041. -/
def stmts9 : List Stmt := [
  .sub 62 2 56, .add 63 1 56, .sub 22 1 57, .add 23 1 57, .add 26 2 57, .sub 27 2 57,
  .sub 30 1 57, .add 31 1 57, .add 38 2 57, .sub 39 2 57, .sub 42 4 57, .add 43 4 57,
  .add 46 2 57, .sub 47 2 57, .sub 54 1 57, .add 55 1 57, .add 58 2 57, .sub 59 2 57,
  .sub 62 1 57, .add 63 1 57, .sub 25 1 58, .add 26 2 58, .sub 27 1 58, .add 29 1 58,
  .sub 30 2 58, .add 31 1 58, .add 41 2 58, .sub 42 4 58, .add 43 2 58, .sub 45 2 58,
  .add 46 4 58, .sub 47 2 58, .sub 57 1 58, .add 58 2 58, .sub 59 1 58, .add 61 1 58,
  .sub 62 2 58, .add 63 1 58, .add 26 1 59, .sub 27 1 59, .sub 30 1 59, .add 31 1 59,
  .sub 42 2 59, .add 43 2 59, .add 46 2 59, .sub 47 2 59, .add 58 1 59, .sub 59 1 59,
  .sub 62 1 59, .add 63 1 59, .sub 37 1 60, .add 38 2 60, .sub 39 1 60, .add 41 2 60,
  .sub 42 4 60, .add 43 2 60, .sub 45 1 60, .add 46 2 60, .sub 47 1 60, .add 53 1 60,
  .sub 54 2 60, .add 55 1 60, .sub 57 2 60, .add 58 4 60, .sub 59 2 60, .add 61 1 60,
  .sub 62 2 60, .add 63 1 60, .add 38 1 61, .sub 39 1 61, .sub 42 2 61, .add 43 2 61,
  .add 46 1 61, .sub 47 1 61, .sub 54 1 61, .add 55 1 61, .add 58 2 61, .sub 59 2 61,
  .sub 62 1 61, .add 63 1 61, .add 41 1 62, .sub 42 2 62, .add 43 1 62, .sub 45 1 62,
  .add 46 2 62, .sub 47 1 62, .sub 57 1 62, .add 58 2 62, .sub 59 1 62, .add 61 1 62,
  .sub 62 2 62, .add 63 1 62, .sub 42 1 63, .add 43 1 63, .add 46 1 63, .sub 47 1 63,
  .add 58 1 63, .sub 59 1 63, .sub 62 1 63, .add 63 1 63]

/-- All statements. -/
def stmts : List Stmt :=
  stmts0 ++ stmts1 ++ stmts2 ++ stmts3 ++ stmts4 ++ stmts5 ++ stmts6 ++ stmts7 ++ stmts8 ++ stmts9

end SixTrack.Tricub
