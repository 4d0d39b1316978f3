import Verif.Basic

/-!
# Numbering the threads of a CUDA launch

Model of `/repo/sixtracklib/cuda/cuda_tools.h:76-206`; the functions for the host (76-144) and those for
the device (148-206) compute the same.  `dim3` holds 32 bit unsigned numbers and `unsigned long` has 64
bits; the assertions are not modelled.
-/

namespace SixTrack.WorkItems

/-- `dim3` -/
structure Dim3 where
  x : BitVec 32
  y : BitVec 32
  z : BitVec 32
  deriving DecidableEq, Repr

/-- the product of 32 bit numbers, then made one of 64 bits -/
def Dim3.product (d : Dim3) : BitVec 64 := (d.x * d.y * d.z).setWidth 64

/-- `Cuda_get_1d_thread_id_in_kernel`, cuda_tools.h:148-169 -/
def threadId (grid block threadIdx blockIdx : Dim3) : BitVec 64 :=
  let id := threadIdx.x.setWidth 64
  let temp : BitVec 64 := block.x.setWidth 64
  let id := id + threadIdx.y.setWidth 64 * temp
  let temp := temp * block.y.setWidth 64
  let id := id + temp * threadIdx.z.setWidth 64
  let temp := block.product
  let id := id + blockIdx.x.setWidth 64 * temp
  let temp := temp * grid.x.setWidth 64
  let id := id + blockIdx.y.setWidth 64 * temp
  let temp := temp * grid.y.setWidth 64
  id + blockIdx.z.setWidth 64 * temp

/-- `Cuda_get_1d_thread_stride_in_kernel`, cuda_tools.h:171-180: all factors have 32 bits.  The same as
`Cuda_get_total_num_threads` (host), 133-143. -/
def threadStride (grid block : Dim3) : BitVec 64 :=
  ((grid.x * grid.y * grid.z) * (block.x * block.y * block.z)).setWidth 64

/-- `Cuda_get_num_blocks_in_kernel`, cuda_tools.h:182-189 -/
def numBlocks (grid : Dim3) : BitVec 64 := grid.product

/-- `Cuda_get_num_threads_per_block_in_kernel`, cuda_tools.h:191-198 -/
def threadsPerBlock (block : Dim3) : BitVec 64 := block.product

/-- `Cuda_get_total_num_threads_in_kernel`, cuda_tools.h:200-205 -/
def totalThreads (grid block : Dim3) : BitVec 64 := numBlocks grid * threadsPerBlock block

end SixTrack.WorkItems
