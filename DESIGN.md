# Formal model of SixTrackLib — design

The properties are listed in `properties.jsonl`. This file says, for each of
them, what is modelled, how it is proved, and what is *not* covered.
`MANIFEST.json` maps properties to theorem names.

## 1. Trusted base

* Lean 4.33.0's kernel. Every property theorem depends on at most the standard
  axioms `propext`, `Classical.choice` and `Quot.sound` (`#print axioms`). No
  `sorry`, no user axioms, no `native_decide`, no `bv_decide`. Some finite facts
  (concrete witnesses, the 941 cells of C59) are evaluated by the kernel
  (`decide`, `decide +kernel`).
* The reading of the C/C++ text in `/repo`. The code is not built or run here,
  so the link between model and code is the citation (file and lines) on every
  definition.
* Mathlib definitions that appear in theorem statements (`Real`, `Real.sqrt`,
  `Real.sin`/`cos`, `Complex`, `HasDerivAt`, `∫`, `List`, `Nat.gcd` ...).

## 2. General modelling decisions

* **Outcomes.** `Res` (`Verif/Basic.lean`) has the outcomes `ok v` and `ub`.
  Undefined behaviour (reads and writes outside allocated memory, misaligned
  64-bit accesses, division by zero, square roots of negative numbers, an array
  index outside its array, reading a variable that is not set) is `ub`, never a
  default value. Status codes are values.
* **Integers.** `uint64_t` sizes and addresses are modelled as `Nat` where the
  code relies on the sum or product being representable; each such theorem has
  an explicit "fits into 64 bit" hypothesis wherever a wrap-around would change
  the result. Where wrap-around is the point (debug register, alignment
  helpers, deficit computation, address shifts, ends of objects in `remap`)
  `BitVec 64` or explicit `% 2^64` is used. Signed indices
  (`particle_index_t`, `int64_t`) are `Int`.
* **Memory.** The managed buffer is modelled on byte-addressed memory with
  little-endian 64-bit loads and stores. `memcpy`/`memmove`/`memset` act on
  bytes. A memory is a list of blocks and a byte for every address.
* **Allocation.** `malloc` is a parameter. It returns null or a block that does
  not overlap the others, in the lower half of the address space, 8-byte
  aligned (`MallocOk`). Allocation failure is therefore covered. A buffer that
  owns its memory owns a memory pool with one chunk, as made by the library.
* **Slot size.** 8, which is the only one the library uses; a few size formulas
  are proved for all slot sizes (C08).
* **Files** are lists of bytes; `fread`, `fwrite`, `fopen` succeed.
* **Asserts.** `SIXTRL_ASSERT` is compiled out in release builds, so an assert
  never changes control flow in the model. What it demands is either an explicit
  hypothesis of a theorem, or leads to the outcome `ub` if its violation is
  undefined behaviour in C.
* **Floating point.** `SIXTRL_REAL_T` is modelled by `ℝ` (or by an arbitrary
  ordered field with the needed functions). All theorems about beam elements,
  apertures, energy, interpolation and beam fields are statements about exact
  arithmetic; rounding and infinity are not modelled. Decimal constants have
  their exact value. The element maps are generic in the number type;
  `Verif/Nan.lean` instantiates them with "a real number or NaN" for the
  statements about NaN coordinates. Division by zero and roots of negative
  numbers are `ub` in the beam-field modules; elsewhere, where Lean's `x/0 = 0`
  would matter, the theorem has a hypothesis that excludes it.
* **The complex error function.** The field formulas take it as an argument.
  C58, C60 and C64 use the exact function, characterised in `Verif/Faddeeva.lean`
  by its differential equation and its value at 0; C59 proves that the code's `cerrf` is within `1e-8` of it, and
  `C58_error` says what an error of the function means for the field.
* **Pointers to external arrays** handed to the buffer API are modelled by their
  contents (a list of bytes). They are assumed not to alias the buffer.
  Element objects with arrays behind pointers (`ElementObjects`, `BeamObjects`,
  `Interpol`) live in a memory of numbered cells; a theorem that needs separate
  arrays says so.
* **Tracking loops** are proved for an arbitrary step function per element with
  three possible requirements (`LossIsMarked`, `OwnRecords`, `Stops`); the
  modules `TrackElements` and `LatticeMap` show which of the library's elements
  meet them. An undefined element step stops the particle (`Stops`).
* **Parallel execution.** Work-items are interleavings of atomic loop
  iterations; a weak memory model is not considered.
* **Asserted but unchecked preconditions** are hypotheses.

When the code violates a property, the model keeps the code's behaviour, the
negation is proved with a concrete witness (theorem suffix `_violated`), and
the provable part is kept, with suffix `_partial` if it is a weaker form of the
property. The notes in `MANIFEST.json` say which is which.

## 3. Module overview

`Verif/Props/X.lean` holds the property theorems, with a non-vacuity example
beside each; `...Lemmas.lean` and most modules not listed are helper lemmas.

| module | models | properties |
|---|---|---|
| `Verif/Basic.lean` | outcomes | base |
| `Verif/Buffer/Mem.lean` | byte memory, 64-bit loads/stores, memcpy/memmove/memset | base |
| `Verif/Buffer/Managed.lean` | managed buffer: sections, init, reserve, clear | C06–C08 |
| `Verif/Buffer/Remap.lean` | remap, address offsets | C03–C05, C68, C70 |
| `Verif/Buffer/Generic.lean` | `Buffer_*_generic`: add, reserve, copies, growth | C01, C02, C09–C12, C53–C55 |
| `Verif/Buffer/File.lean` | writing and reading files | C05, C51, C52 |
| `Verif/Buffer/Modify.lean` | changing objects in place | C02 |
| `Verif/Buffer/Str.lean` | string objects | C69 |
| `Verif/MemPool.lean`, `Verif/Align.lean` | memory pool, alignment helpers | C13, C14 |
| `Verif/ArrayObj.lean` | binary array object | C15 |
| `Verif/DebugReg.lean` | debug register | C16, C17 |
| `Verif/Assign.lean` | address assignment | C18 |
| `Verif/ElemByElem.lean` | element-by-element configuration and indices | C19–C21 |
| `Verif/Monitor.lean` | beam monitor indices, output planning | C22–C26, C47 |
| `Verif/Output.lean` | preparing the output of a run | C71 |
| `Verif/TrackJob.lean` | reset and output buffers of a track job | C72, C73 |
| `Verif/ParticleSets.lean` | choice of the particle sets of a track job | C74 |
| `Verif/ParticlesAddr.lean` | addresses of particle sets | C75 |
| `Verif/JobTrack.lean` | tracking kernels over particle sets, CPU job, debug kernels | C76, C77 |
| `Verif/WorkItems.lean` | numbers of CUDA threads | C78 |
| `Verif/NodeController.lean` | list of nodes, default node, selected node; selecting in the CUDA controller | C79 |
| `Verif/TrackOpt.lean` | copies of a particle to flat arrays and back; the optimised tracking kernels | C80 |
| `Verif/Argument.lean` | CUDA arguments: device memory, sending, receiving, updating regions | C81 |
| `Verif/KernelList.lean` | kernels of a controller, kernels for remapping, switching the debug mode | C82 |
| `Verif/Compare.lean` | comparing numbers and ranges, exactly and with tolerances; numbers with NaN and infinities, rounding as a parameter | C83 |
| `Verif/CompareParticles.lean` | the test library's comparisons of sets and buffers of particles: bytes, thresholds, largest differences | C84 |
| `Verif/CompareElements.lean` | the test library's comparisons of beam elements, of objects and of lines | C85 |
| `Verif/AssignList.lean` | the lists of address assignments a track job keeps (new and old job) | C86 |
| `Verif/StoredBuffers.lean` | the buffers a user stores in a job, with their arguments on devices | C87 |
| `Verif/JobCopy.lean` | copying, assigning, moving and destroying jobs (new and old job), with their buffers | C88 |
| `Verif/OldJob.lean` | making and resetting the older job, selecting a particle set | C89 |
| `Verif/ClContext.lean` | nodes, programs and kernels of an OpenCL context | C90 |
| `Verif/ClRun.lean` | arguments, launches, times and status flags of kernels of an OpenCL context | C91 |
| `Verif/NodeInfo.lean` | descriptions of compute nodes and their texts on the heap | C92 |
| `Verif/ClNodes.lean` | the list of allowed OpenCL nodes and the nodes given out | C93 |
| `Verif/ClArgument.lean` | arguments of OpenCL kernels and the remapping on the device | C94 |
| `Verif/ClTrack.lean` | kernels, arguments and launches of the OpenCL context for tracking | C95 |
| `Verif/ClTrackNew.lean` | programs, kernels and constructors of the OpenCL context for tracking | C96 |
| `Verif/ClJob.lean` | preparing, resetting and tracking of the OpenCL job | C97 |
| `Verif/ClJobIo.lean` | transfers of the OpenCL job and its stored buffers | C98 |
| `Verif/ClJobAddr.lean` | address assignments of the OpenCL job | C99 |
| `Verif/StrObj.lean` | strings in buffers | C100 |
| `Verif/CudaGrid.lean` | blocks and threads of CUDA kernels | C101 |
| `Verif/CudaLaunch.lean` | kernels the CUDA track job prepares and launches | C102 |
| `Verif/CudaInit.lean` | setting up and resetting the CUDA track job | C103 |
| `Verif/CudaStore.lean` | threads of the CUDA kernel that stores addresses, one step at a time | C104 |
| `Verif/CudaRemap.lean` | remapping on the CUDA device, the debug register, asking whether it is remapped | C105 |
| `Verif/ElementAt.lean` | elements of a type by their index | C106 |
| `Verif/Particles.lean` | particle ids, ranges, copies | C27–C29 |
| `Verif/Track.lean` | tracking loops, dispatcher | C30–C34 |
| `Verif/Elements.lean`, `Verif/ElementsReal.lean`, `Verif/Nan.lean` | beam element maps, over ℝ (and with NaN) | C31–C40, C50 |
| `Verif/Canon.lean`, `Verif/KickMap.lean`, `Verif/Lift.lean` | canonical coordinates, symplectic maps | C40, C50, C60, C64 |
| `Verif/ElementObjects.lean` | element objects in memory: setters, clear, copy; factorial tables | C38, C43, C48, C49 |
| `Verif/TricubStmts.lean`, `Verif/Tricub.lean`, `Verif/TricubTrack.lean` | tricubic interpolation | C41 |
| `Verif/Interpol.lean` | linear and cubic interpolation | C42, C66 |
| `Verif/NodeId.lean`, `Verif/KernelConfig.lean`, `Verif/BufferStore.lean` | control layer | C44–C46 |
| `Verif/BeamFields.lean` | boost, sigma matrix, Gaussian fields, 4D/6D beam-beam, space charge | C56–C58, C60, C61, C64 |
| `Verif/Boost*.lean`, `Verif/SigmaMatrix.lean`, `Verif/Gauss*.lean`, `Verif/Slice*.lean`, `Verif/BeamBeamMap.lean` | analysis of the above | C56–C58, C60 |
| `Verif/Faddeeva*.lean`, `Verif/Cerrf*.lean`, `Verif/RayIntegral.lean` | complex error function and `cerrf` | C58, C59 |
| `Verif/QGauss*.lean`, `Verif/PowInt.lean`, `Verif/FieldKick.lean` | q-Gaussian profile, integer power, transverse kicks | C62–C64 |
| `Verif/BeamLine.lean` | copying lines of elements into buffers | C65 |
| `Verif/BeamObjects.lean` | line density profiles, beam-beam and space-charge objects | C66, C67 |

## 4. Plan per property

* **C01, C02** Byte-level model of `Buffer_add_object_generic` on a managed
  buffer. A predicate `Reads m i o` says, only in terms of loads from memory,
  that the object at index `i` has the type id, size, handle bytes and
  (through the stored pointers) attribute bytes of the specification object
  `o`. Refinement: if the buffer represents the list `os` and the add returns
  success then it represents `os ++ [o]`. C02 by induction over the history, which
  includes changes of the objects by the client in place.
* **C03, C04, C05** `ManagedBuffer_remap` and `_apply_addr_offset` on memory
  relocated by an arbitrary difference; `Reads` is invariant. C05 as algebraic
  law (shift by `d` and by `-d`).
* **C06** `ManagedBuffer_reserve` in full. Success preserves the represented
  list; failure atomicity is expected to be false (section moved before a later
  section turns out to be impossible to move): witness + partial.
* **C07** Invariant of init, add, reserve, clear, remap.
* **C08** Arithmetic on the size functions; the add model's slot consumption is
  compared with the prediction.
* **C09** From the model of clear.
* **C10** Expected false (exact counts are requested from reserve, which shrinks
  the other sections): witness + partial for "fits in all sections".
* **C11** Expected false at `index = num_objects`: witness + partial.
* **C12** Decision part proved; the reported deficit underflows: witness +
  partial.
* **C13** Model of the pool; invariant over histories of allocations.
* **C14** `gcd`/`lcm` against `Nat.gcd`/`Nat.lcm`; `log2_floor`, `log2_ceil`,
  `commonN` expected false: witnesses + partial.
* **C15** Expected false: witness + partial (removal, clear).
* **C16, C17** `BitVec 64` model, all registers.
* **C18** Items performed in any order / partition; permutation invariance.
* **C19–C21** Index arithmetic on `Int`, injectivity by div/mod.
* **C22, C23** Same for monitors; the particle-ordered branch is expected to be
  false: witness + partial.
* **C24–C26** Models of the assign / prepare / calculate loops over a lattice;
  C25 and C26 expected false: witnesses + partial.
* **C27** Merge sort with duplicate check, against `List.Nodup`/`List.Perm`.
* **C28** Folds; the no-duplicate-check variant is expected false.
* **C29** Index arithmetic of the copy functions; redirecting of out-of-range
  destinations expected to violate the property.
* **C30–C34** Tracking loops over an arbitrary element map (parameter), so the
  theorems hold for every beam element; C31 and C33 partly false.
* **C35–C40** Real arithmetic (`ring`, `field_simp`, `nlinarith`).
* **C41** The 64 coefficient formulas are transcribed by a script from
  `coefficients.h`; the 64 corner conditions are ring identities.
* **C42** Tridiagonal solver by induction; node values and derivative matching.
* **C43** Factorial tables: false at 11 and above 20; round trip partial.
* **C48–C49** Models of the setter loops on a memory of cells, closed form of each
  loop by induction; many setters expected false.
* **C50** Symplectic form by directional derivatives, as C40; expected false for
  order ≥ 1 (missing factor 1/(n+1) in the energy kick).
* **C44** Decimal printing/parsing of platform and device ids.
* **C45** Expected false in several overloads; witnesses + partial.
* **C46** Ownership invariant over histories; copy assignment expected false.
* **C47** Index arithmetic of the monitors, expected false at the first turn.
* **C51–C55** The byte-level buffer model extended by files, detailed
  capacities and buffers on existing data; exceptions expected where the last
  attribute array is empty.
* **C56, C60** Derivatives of the boost and of the slices in all six
  coordinates; symplectic form preserved up to the conformal factor of the boost.
* **C57** Algebra of the 4×4 sigma matrix; the eigenvalues of the transverse
  block by the characteristic equation; derivatives along the drift.
* **C58** The field from the Faddeeva function: differential equation of `w`,
  divergence and curl of the field by `HasDerivAt`.
* **C59** The error of the cut continued fraction as an integral, bounded
  outside the rectangle; inside, cells whose bounds are checked with natural
  numbers in the kernel.
* **C61** Model of the compile-time switches in the dispatcher.
* **C62, C63** Integrals of Mathlib; digits in base eight.
* **C64** Kick formulas against the exact field; derivatives as in C40.
* **C65** Model of the dispatchers over types, loops by induction over the line.
* **C66, C67** Cells in memory as in C48, evaluation by the functions of C42.
* **C68** The remap loops on arbitrary records.
* **C69** Characters in memory; in a buffer as a change of one object in place.
* **C70** The loops of the address offset; the garbage loop where it starts.
* **C71** The output buffer after preparing; element range and monitor flag are wrong in the cases
  `C71_element_range_violated` and `C71_monitor_flag_violated`.
* **C72** When a reset of a track job succeeds, and that its output is then ready (`EbeReady`,
  `MonitorsReady`); a lattice whose monitors start too early, a second reset with the same buffer, the
  job's own buffer and changed defaults are the cases where the code deviates (`C72_*_violated`).
* **C73** Another output buffer for a job: holds for particles that start in turn 0; for later ones
  the last turns or the configuration are lost, and the C++ function returns the opposite status.
* **C74** The particle sets of a job: hold when one of the asked objects is a set; indices that are no
  sets are dropped with success, the default choice counts no particles, and `selectParticleSet` takes the
  output buffer for the particles buffer when the job was given C++ buffers.
* **C75** Pointers as numbers, a record as a number per array; undefined and saturating offsets, cleared
  records, foreign objects and the empty buffer are the cases `C75_*_violated`.
* **C76** Elements are arbitrary maps (`Sem`); an object that is no set and turn numbers from 2^63 on are the
  cases `C76_*_violated`; element-by-element tracking is limited as in C33.
* **C77** Tests that come too late or compare the wrong number are the cases `C77_*_violated`.  Work-items of a
  launch are run one after another, in any order.
* **C78** `Cuda_get_1d_thread_stride_in_kernel` multiplies in 32 bits (`C78_stride_violated`).
* **C79** `doRemoveNodeFromSelection` and `doSetDefaultNodeIndex` do not take the flags of the old node away
  (`C79_flag_violated`, `C79_default_flag_violated`); selecting the selected node fails (`C79_again_violated`);
  nodes with an id text of more than 16 characters can not be selected, and the attempt drops the selection
  (`C79_long_violated`); `doClear` leaves the pointer to the default node's id dangling and the text of the
  selected node in place (`C79_clear_violated`); a platform id without device id is replaced or the node is
  dropped (`C79_given_platform_violated`); negative device ids can be given twice (`C79_duplicate_violated`);
  `CudaController::doChangeSelectedNode` takes the status (0 = success) as a truth value, so that a change
  that works is reported as failed (`C79_cuda_change_violated`) and a refused change as done, with the other
  device active (`C79_cuda_refused_violated`).
* **C80** The output does not lie in the arrays of the tracked set.  The index of the object is tested with `<=`
  (`C80_next_index_violated`); an index above it gives success (`C80_set_index_violated`); the debug kernels
  report success for an object that is no set (`C80_not_a_set_violated`) and read behind the lattice
  (`C80_line_end_violated`); `Particles_copy_to_generic_addr_data` asserts the wrong relation in debug builds
  (`C80_copy_assert_violated`).
* **C81** Remapping is a function of the bytes and the new address, which keeps the length (`Fmt.Keeps`); copies
  by the CUDA runtime move all bytes or none.  Sending other data keeps the reference to the first data if no new
  memory is needed (`C81_stale_raw_violated`, `C81_stale_buffer_violated`, `C81_raw_after_buffer_violated`); outside
  the debug mode a failed remapping is not reported (`C81_silent_remap_violated`); a send that fails for want of
  memory forgets where the data came from (`C81_forgets_violated`); the test of a region wraps around
  (`C81_update_violated`).  Raw memory cannot be sent by a controller without a kernel for remapping
  (`C81_raw_needs_remap_kernel`).
* **C82** Names need not be unique and may be empty (`C82_find_violated`); the number of kernels is bounded by an
  assertion only (`C82_full_violated`); the constructor does not initialise `m_remap_debug_kernel_id`
  (`C82_debug_unset_violated`); `doClear` keeps the kernels and that id, and a controller cleared in debug mode
  cannot leave it (`C82_clear_violated`); selecting a CUDA node again adds the kernels for remapping again, and
  the status of the first is overwritten by that of the second (`C82_select_violated`).
* **C83** Rounding is a parameter with the assumptions `Rnd.Good`; they are met by `cmpRnd` (no rounding, but an
  overflow).  A NaN compares as smaller in both directions (`C83_nan_violated`), an infinity differs from itself
  as soon as there is a tolerance (`C83_infinite_violated`), a relative tolerance refers to the right number
  (`C83_relative_violated`), the C++ predicates take a NaN to be larger than everything
  (`C83_predicates_violated`), and the C++ result has the opposite sign of the C result (`C83_cxx_violated`).
* **C84** The exact comparison looks at bytes (little endian is assumed), so that its sign does not say which number is
  larger (`C84_order_violated`), zero differs from minus zero (`C84_minus_zero_violated`) and a NaN equals itself
  (`C84_nan_exact_violated`).  Sets without particles never agree (`C84_empty_violated`).  With a threshold a NaN
  agrees with everything (`C84_nan_violated`), and everything agrees within a threshold that is a NaN
  (`C84_nan_threshold_violated`).  The largest difference ignores NaN (`C84_max_nan_violated`) and may overflow for
  integers (`C84_max_int_violated`); without an array of indices nothing is done (`C84_max_indices_violated`); for
  buffers the result overwrites the left operand (`C84_max_buffers_violated`, `C84_max_overwrites_violated`); the
  printed indices are shifted from the attribute `charge_ratio` on (`C84_printed_index_violated`).
* **C85** The exact comparison of `SCQGaussProfile` forgets an attribute (`C85_qgauss_violated`); `LimitRectEllipse`,
  and with a threshold `SCInterpolatedProfile`, have no case, so that they differ from their copies
  (`C85_missing_violated`); the threshold is not used for `SCCoasting` and `SCQGaussProfile`
  (`C85_space_charge_violated`).  The sign is reversed for dipole edges and `TriCub` (`C85_sign`) and, with a
  threshold, for exact drifts (`C85_drift_exact_violated`).  NaN, infinities, null addresses, missing data and negative
  thresholds give wrong verdicts (`C85_nan_violated`, `C85_infinite_violated`, `C85_null_violated`,
  `C85_no_data_violated`, `C85_negative_threshold_violated`).  Empty lines differ, a line agrees with every longer one
  and the longer one is read beyond the end of the shorter one (`C85_line_violated`).  The attributes of an element are
  a list here, in the order of comparison; addresses (of the data of a `TriCub`, of the output of a monitor) are
  integers that are compared like others.
  The C++ template for ranges with tolerances passes the type of a number as the type of the result; for a
  floating point type a `static_assert` fails, so that it cannot be used (not modelled).
* **C86** Removing one item removes all items of its pair of buffers (`C86_remove_violated`), and is undefined if the
  buffer of items has no room for copies of the others (`C86_remove_undefined_violated`); `C86_remove_partial` says what
  holds.  The ranges of items and of keys are always empty (`C86_ranges_violated`).  Items with illegal ids are accepted
  and block the assignment of all addresses (`C86_illegal_violated`).  The older job keeps the keys when it is cleared
  and loses them when it is copied (`C86_old_clear_violated`, `C86_old_copy_violated`).
* **C87** Reserving room never gives any (`C87_reserve_violated`: the comparison is the wrong way round); the smallest
  and the largest id need not lead to a buffer (`C87_min_max_violated`); pushing, collecting and removing a buffer that
  is gone succeeds as long as there is another one (`C87_removed_violated`, `C87_push_partial`); a null pointer gets an
  id (`C87_null_violated`).  On a device, removing with an id that was not given out and adding a null pointer to a job
  without buffers are undefined (`C87_device_remove_violated`, `C87_device_null_violated`).
* **C88** Only the copy constructor of `TrackJobBaseNew` does what one expects, unless the job uses a buffer it stores
  itself (`C88_copy_borrow_violated`).  Moving dereferences a null pointer, for every job (`C88_move_violated`,
  `C88_move_assign_violated`).  Assignment may leave a pointer to the other job's output buffer
  (`C88_assign_dangles_violated`), may lose the output (`C88_assign_lost_violated`) or keep what it should not
  (`C88_assign_kept_violated`), and does not copy stored buffers, address assignments and the element-by-element
  configuration (`C88_assign_stored_violated`, `C88_assign_ebe_violated`).  A `TrackJobBase` gets the type as name of
  its device, loses the keys of its assignments, an uninitialised flag and, in a copy, the user's output buffer
  (`C88_old_copy_violated`, `C88_old_copy_output_violated`, `C88_old_move_copy_violated`, `C88_old_move_violated`);
  ownership after an assignment may be wrong (`C88_old_assign_stored_violated`, `C88_old_assign_output_violated`).
  Assignment to a `TrackJobBase` is only described for a job which owns nothing (`C88_old_assign_partial`).
* **C89** A reset of the older job clears everything first, so that nothing is left of the past (`C89_fresh`), but this
  also drops stored buffers and address assignments, even if the reset fails (`C89_drops_violated`), and frees the
  output buffer of the job, which may have been passed (`C89_own_violated`).  The constructors with one index look for
  the set without the buffer: undefined unless it is 0 (`C89_one_violated`), and then nothing is counted
  (`C89_uncounted_violated`).  If no index names a set the reset succeeds, without sets and output
  (`C89_none_left_violated`).  Selecting a set with C++ buffers takes the output buffer for the particles buffer
  (`C89_select_violated`).
* **C90** The lists of a context stay consistent (`C90_sound`, `C90_stable`).  But a selection that fails to build a
  program leaves the node selected for good (`C90_select_fails_violated`), selecting by id or text leaves out the
  arguments of the kernel for remapping (`C90_select_args_violated`), enabling a kernel again gives the illegal id
  (`C90_enable_violated`), switching to debug mode adds the default program twice (`C90_debug_violated`), a missing file
  is not noticed because ids have no sign (`C90_init_violated`), a flag cannot be changed (`C90_flag_violated`), the
  include directory given as a pointer goes to the wrong member (`C90_inc_dir_violated`) and is not used anyway
  (`C90_inc_dir_unused_violated`), and the C function for a context on the default node deletes it exactly if the
  selection has succeeded (`C90_new_violated`).
* **C91** Times are rational numbers.  Assigning an argument does what it should for a kernel and an index that are there
  (`C91_assign`); otherwise some functions throw, some are undefined, one aborts the program (`C91_id_violated`), and a bad
  index is not noticed (`C91_index_violated`).  The address of an OpenCL buffer is given out as that of a `ClArgument`
  (`C91_confusion_violated`), resetting all arguments leaves values in the kernel (`C91_reset_violated`), the number of
  work items computed beforehand is not the number launched if no size of groups has been set
  (`C91_computed_violated`), the numbers wrap near `2^64` (`C91_wrap_violated`), the largest time starts above 0
  (`C91_max_violated`), resetting the times leaves the last launch (`C91_last_violated`), flags with a stored status are
  read as a general failure (`C91_flags_violated`), and setting the flags returns the status (`C91_set_violated`).
* **C92** The heap is a list of blocks of bytes, each of which may be unwritten; whether `malloc` succeeds is a parameter.
  Reserving and freeing are right (`C92_reserve`, `C92_reserve_fails`, `C92_free`).  `NS(ComputeNodeInfo_make)` hands the
  lengths of name and platform over in the wrong order: it is right if they are equal (`C92_make_partial`), writes behind
  the end of a block if they differ by more than one (`C92_make_overflow`, `C92_make_violated`), leaves a text without an
  end if they differ by one (`C92_make_open_violated`), and fails without a platform (`C92_no_platform_violated`).  The
  text printed is right up to a cut in large ids (`C92_print`, `C92_id_text`, `C92_id_text_violated`); printed to an array
  it just fits, it has no end (`C92_print_to_str_violated`).
* **C93** Platforms, devices and the environment are parameters.  A list of ids allows these ids, in order and without
  repetition (`C93_list`, `C93_no_list`); huge numbers are undefined and garbage behind an id is not seen
  (`C93_huge_violated`, `C93_garbage_violated`).  All devices are found and described in memory of their own (`C93_all`),
  and those chosen are given out, the rest is freed (`C93_available`).  With assertions a platform without devices aborts
  (`C93_platform_violated`); an empty name of the variable gives no nodes (`C93_empty_name_violated`); a device without a
  name has a description without an id (`C93_no_name_violated`).  The ids copied are right (`C93_ids`), and so is the
  printed list (`C93_print_partial`) unless a text has 2048 characters, which is read behind its end
  (`C93_print_full_violated`), or more, which is left out (`C93_print_long_violated`).
* **C94** The answers of OpenCL and what remapping does to bytes are parameters; a failed transfer or launch does nothing.
  A buffer that fits is written (`C94_write`) and comes back (`C94_round_trip`, for addresses that differ between host and
  device); others are refused (`C94_refused`).  A buffer without room for the whole argument cannot be read again
  (`C94_small_violated`).  The debugging kernel notices a failed remapping (`C94_debug`), the normal one does not
  (`C94_unseen_violated`); if the node was selected by its id in debug mode, nothing can be written since the third
  argument of the kernel is not set (`C94_by_id_violated`).  New arguments have their size in memory (`C94_new_size`,
  `C94_new_buf`) unless the device has none (`C94_no_memory_violated`).  Raw memory: `C94_raw`, `C94_raw_refused`.
  Regions: `C94_regions`, `C94_regions_inside`; an update that fails has written the regions before the bad one
  (`C94_regions_violated`).  Contexts: `C94_attach`, `C94_attach_empty`, `C94_attach_refused`.  A success means that every
  step on the way was one (`C94_success`, `C94_read_success`, `C94_raw_success`); what is not made or updated:
  `C94_new_raw`, `C94_new_empty`, `C94_regions_refused`.
* **C95** The launches are recorded with their arguments; what kernels do is not described, and whether OpenCL takes a launch
  is a parameter, but it takes none with arguments that are not set or without work items.  Assignments: `C95_particles` to
  `C95_flags`; one that fails may have changed some kernels (`C95_atomic_violated`), and one without a node is a success
  (`C95_no_node_violated`, `C95_addr_buffer_violated`).  Calls: `C95_until` to `C95_fetch`; from assigning to launching:
  `C95_whole`.  False: a set that is not restored is tracked again instead of the selected one (`C95_stale_violated`);
  tracking a set element by element takes the number of particles of the selected set (`C95_items_violated`); addresses are
  assigned with the slot size of the destination for the source (`C95_slots_violated`); the id of the kernel for lines
  depends on that for turns (`C95_line_id_violated`); ids that no constructor writes are read (`C95_unset_violated`,
  `C95_unset_addr_violated`).
* **C96** To make a kernel from a program that has been built succeeds; which names the sources have is a table of their text
  (`provided`).  Names and options: `C96_names`, `C96_options`; constructors: `C96_programs`, `C96_at`, `C96_on`, `C96_str`,
  `C96_out_of_range`; selecting: `C96_select`, `C96_select_amd`; changing the programs: `C96_opt`, `C96_debug`,
  `C96_beam_beam_partial`.  False: the constructor with an id asks for optimised kernels in the program for normal tracking
  (`C96_id_violated`); a text that names no node gives optimised kernels even on AMD (`C96_default_violated`); without some
  source file the constructors read an id that was never written (`C96_missing_violated`), and selecting a node fails but
  leaves it selected (`C96_select_missing_violated`); a node selected by id gets no arguments (`C96_select_id_violated`), one
  selected by index no index of the configuration (`C96_select_config_violated`); since the library defines the macros,
  enabling or disabling beam-beam elements has no effect (`C96_beam_beam_violated`).
* **C97** What the common base class gives, and whether a buffer reaches the device, are parameters (`Base`, `Env`); assertions
  are not compiled.  Tracking: `C97_track`, `C97_line`, `C97_elem_partial`, `C97_again`, `C97_no_sets`; preparing:
  `C97_particles_partial`, `C97_particles_status`, `C97_elements`, `C97_output`; output: `C97_monitors`,
  `C97_monitors_refused`, `C97_ebe_partial`; as a whole: `C97_reset_partial` (without output), `C97_reset_track`,
  `C97_output_part`, `C97_reset_output`; failures: `C97_output_fails`, `C97_reset_fails`, `C97_no_output`, `C97_required`,
  `C97_refused`.  False: element by element all sets are tracked with the number of particles of the selected
  one (`C97_elem_violated`); if the selected set is not the first, it is not tracked (`C97_order_violated`, a list that
  sorting sets does not give); several sets without a node use a kernel that is not there (`C97_no_node_violated`); particles
  that did not reach the device go unnoticed (`C97_particles_violated`), so that after a successful reset the old ones are
  tracked (`C97_stale_violated`); a failed launch for the output of tracking element by element goes unnoticed
  (`C97_ebe_violated`); without a node (`C97_no_node_prepare`) a reset is a success though nothing can be tracked
  (`C97_no_node_reset_violated`).
* **C98** Arguments and OpenCL are those of C94, stored buffers those of C87; what launching the kernel for addresses does is a
  parameter.  `C98_collect`, `C98_push`, `C98_round_trip`, `C98_bits`, `C98_named`, `C98_flags`, `C98_cleared`, `C98_fetch`,
  `C98_fetch_fails`, `C98_stored_add`, `C98_stored_push`, `C98_stored_collect`, `C98_stored_gone`.  False: failed transfers are
  reported by nobody, and collecting addresses is always a success (`C98_silent_violated`); a buffer that has grown beyond
  its argument is not pushed (`C98_grown_violated`); all flags for pushing leave out the addresses
  (`C98_push_all_violated`); a buffer stored without a node gets an id, but can never be transferred
  (`C98_stored_violated`).
* **C99** The lists of items are those of C86, stored buffers those of C87, the launch that of C95; whether the argument of the
  items can be made is a parameter, and what the kernel does is C18.  `C99_lookup`, `C99_perform`, `C99_refused`,
  `C99_assign_all`, `C99_stops`, `C99_fails`, `C99_empty`; slots have the same size (`C95_slots_violated`).  False: an item about
  an id that is no buffer is accepted and keeps all pairs after it from getting their addresses (`C99_raw_violated`).
* **C100** `C100_length`, `C100_append`, `C100_null`, `C100_clear`, `C100_sync`, `C100_history`, `C100_new_from`,
  `C100_detailed`, `C100_slots`; assigning and adding only in part (`C100_assign_partial`, `C100_add_partial`).  False: a string
  that is one character too long is accepted, its end is not marked and its length is given as 0 (`C100_add_violated`), so that
  appending overwrites it (`C100_append_violated`); the empty string can not be assigned to an object without room for more
  (`C100_assign_violated`); each copy has a larger capacity than its original (`C100_copy_violated`); the length counted from the
  end is one too small (`C100_reverse_violated`), so that the assertions fail for 1024 or more characters
  (`C100_assert_violated`).  That the buffer has room is a parameter (C01–C05).
* **C101** Sizes are those of C45, the numbering of threads is C78.  `C101_update`, `C101_every_item`, `C101_refused`,
  `C101_total`, `C101_remap`, `C101_history`, `C101_total_none`, `C101_cleared`.  False: a configuration never needs an update (`C101_flag_violated`), so that one
  whose sizes have changed is launched with its old blocks (`C101_stale_violated`, `C101_stale_items_violated`); an update to
  2^32 blocks is a success with none (`C101_wide_violated`); an update that fails may change the blocks
  (`C101_failure_violated`); the totals have 32 bits (`C101_total_violated`); limits are not looked at (`C101_limit_violated`).
* **C102** Configurations are those of C101; what a kernel does on the device is a parameter (the register it leaves), apart from
  tracking, which is C78.  `C102_prepare`, `C102_refused`, `C102_track`, `C102_assign`, `C102_not_ready`, `C102_share`,
  `C102_threads`, `C102_until_tracks_partial` (threads one after another, as in C78), `C102_num_sets`, `C102_assign_single`,
  `C102_set_kernel`, `C102_add_refused`, `C102_prepare_fails`.  False: tracking parts of the line and
  assigning output for tracking element by element use the configuration of another kernel (`C102_line_violated`); the latter
  launches the plain kernel in the debug mode and the other one outside of it (`C102_config_debug_violated`); only the first
  particle set is tracked (`C102_sets_violated`); particles are divided by the threads of a block twice
  (`C102_threads_violated`); the turn for beam monitors is ignored (`C102_turn_violated`); without a selected node preparing is
  a success (`C102_no_node_violated`); blocks may be larger than any device allows (`C102_block_violated`); the kernel for
  addresses is configured for bytes (`C102_bytes_violated`); the last kernel may fail unnoticed
  (`C102_assign_lost_violated`); a missing configuration is a success in the debug mode (`C102_no_conf_violated`); a job without
  particle sets reads one (`C102_no_sets_violated`).
* **C103** Arguments are those of C81, particle sets those of C74; what the base class does to elements and output, making the
  kernels and assigning the output are outcomes that the world gives.  `C103_init`, `C103_init_succeeds`, `C103_refused`,
  `C103_particles_partial`, `C103_reset_partial` (without output), `C103_reset_output`, `C103_reset_succeeds`.  False: particles
  that cannot be sent are no failure (`C103_particles_violated`); a reset with output forgets that an earlier step failed
  (`C103_reset_violated`); the ranges are found before the sets are chosen (`C103_ranges_violated`); sets that do not exist are
  no failure (`C103_sets_violated`); the overridden preparations take the logical and of two statuses
  (`C103_both_violated`).
* **C104** Records and sets are those of C75, the register that of C16, the numbering of threads C78.  A schedule is any list of
  threads; storing the addresses of one set is one step, reading and writing the register are two.  `C104_stores_partial` (not more
  records than sets), `C104_same`, `C104_reported`, `C104_others_kept`, `C104_ends`, `C104_one_works`.  Wrapper and kernel name
  their two buffers in opposite orders; both swaps together give the function called the right buffers, but the kernel takes the
  number of objects from the buffer of addresses.  False: more records than sets are read behind the sets
  (`C104_more_records_violated`); fewer are a success, other than on the host (`C104_fewer_records_violated`); in the debug mode
  records behind an object that is none may be left out (`C104_debug_differs_violated`).
* **C105** Arguments and the format of bytes are those of C81, the register that of C16; a kernel that fails leaves the bytes alone,
  which is an assumption.  `C105_debug_success`, `C105_debug_failure`, `C105_plain`, `C105_refused`, `C105_no_register`,
  `C105_direct_refused`, `C105_asked`, `C105_throws`, `C105_remapped`, `C105_register_left`, `C105_register_kept`,
  `C105_register_read`, `C105_register_refused`, `C105_unread_answer`.  False: outside the debug mode a
  remapping that failed is a success (`C105_plain_reports_violated`); if the register cannot be read, remapping fails although the
  memory was remapped (`C105_unread_violated`); asking leaves 1 or 2 in the register, which reads as the status of a kernel
  (`C105_register_violated`).
* **C106** The object index and what follows it are words of memory; `sizeof` is a parameter.  `C106_found`, `C106_ids`,
  `C106_one_type`, `C106_outside`, `C106_behind`.  False: the index that is the number of objects is accepted, so that a full buffer
  of two multipoles has a third element, a drift at address 32 (`C106_index_violated`).  C18 has the same test as undefined; so is it
  here if fewer than three words follow (`C106_end_violated`).  `C106_numbers` repeats the table of the enumeration and only guards
  against slips in the model.

## 5. Not modelled

OpenCL/CUDA run time, host/device transfer, the Python bindings, floating-point
rounding, file system errors, thread memory model, the argument and controller
classes beyond what section 4 lists. The tricubic map outside its grid is undefined in the
model. Nothing is claimed at the borders between the branches of the beam-beam
computation (C57, C60).

## 6. Wrong programs

`seeded/LOG.jsonl` lists edits of model definitions in a scratch copy, each with
the claim that it breaks and the theorems that failed. Where every theorem still
held, the theorems that were added or tightened are named.

How to read an entry: `failed_theorems` are the proofs that no longer compile,
which may be helper lemmas; `claims_no_longer_proved` are the claims that use
them. A helper lemma that fails shows that the proof of those claims is lost, not
that they have become false: a harmless rewriting of a definition can break a
proof as well. For most of the edits of `Verif/CudaStore.lean` (C104) only the
invariant of one step or its neighbours failed. Only an entry that names a claim
itself, or an example beside it, as failing comes closer to a refutation.
