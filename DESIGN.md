# Formal model of skolai/NNTile in Lean 4 — design

## Approach

* The code under `/repo` is read as text; nothing is built or run. Each definition in `lean/Verif/Model/*` cites
  the file and lines it models and says where it simplifies.
* **Outcomes.** Every modelled function runs in `M = Except Err`, where `Err` distinguishes a C++ exception
  (`Err.throw`), undefined behaviour (`Err.ub`: out-of-bounds access, division by zero, read of undefined
  memory) — so "no UB" is part of each "returns ok" theorem.
* **Memory.** A tile buffer is `Buf α`: a size and cells of type `Option α`; `none` is an undefined cell
  (never written, or invalidated by a write-only access mode). Reads of `none` and out-of-range accesses are UB.
* **Loops.** C `for` loops are the `forN` combinator (`Verif/Model/Core.lean`), with the index arithmetic of the code.
* **Scalars.** Kernels are written over an arbitrary type with arbitrary operations. Theorems that need no
  algebraic law (copying, element-wise operations, broadcasting) are proved for *every* interpretation of the operations, so they
  hold bit-exactly for IEEE arithmetic. Theorems that need algebra (reductions, gemm, softmax, Adam) are proved
  over a commutative ring / field / the reals: *rounding is not modelled*.
* **Indices.** `Index` = `int64_t` is modelled by unbounded `Int` at the API (argument checks) and `Nat` after the checks.
  Overflow of `int64_t` is not modelled, except in the random generator (`BitVec 64`, where wrap-around matters) and in C67, which
  proves that the arithmetic of the traits of tiles and tensors does not overflow below `2^63` elements.
* **Runtime.** Tensor-level `_async` functions produce a list of tile tasks with access modes
  (`Verif/Model/Task.lean`). Sequential execution of that list is the semantics; C26 shows that every schedule respecting the modes
  gives the same result. StarPU itself, MPI transfers and performance are not modelled.
* **GPU.** `Model/Cuda.lean` is an operational semantics of a kernel launch: every thread of the grid is a program of reads, writes,
  atomic additions and barriers; any interleaving is possible; data races, undefined behaviour and deadlock are observable
  (`Spec/Cuda.lean`). `dim3` fields and `int` indices wrap around at 32 bits; a launch with an invalid configuration does nothing.
  `Model/CudaKernels*.lean` has the kernels of `src/kernel/*/cuda.cu`. Not modelled: contraction to fused multiply-add and the rounding of
  device library functions, weak memory effects of race-free programs (none), streams, cuBLAS.

* **Not modelled.** C++ `src/layer`, `src/model`, `src/optimizer` and `include/nntile/layer` (not compiled: commented out in `src/CMakeLists.txt:331-342`
  and `include/nntile.hh:36`; the Python layers, models and optimizers are modelled instead); MPI (disabled, `include/nntile/starpu/config.hh:23-50`);
  unused kernels in `src/kernel/maxsumexp/cuda.cu`; `DeepReLU_mp` behind the name which its constructor does not find (C88); the programs in `wrappers/python/examples` and `examples` except how batches are made and text is generated (C89–C91); wall-clock times, profiling, logging.

## Trusted base

Lean 4.33.0 kernel; the standard axioms `propext`, `Classical.choice`, `Quot.sound` (the list per theorem is in `AXIOMS.md`, made from `#print axioms`);
the correspondence model ↔ code (by reading; every definition cites its lines); the reading of the CUDA programming guide in `Model/Cuda.lean`; StarPU honouring access modes; exact
arithmetic in place of IEEE rounding where a theorem is stated over ℝ or a ring.

## Per-property plan

| id | model | proof |
|----|-------|-------|
| C01 | `TileTraits` construction, `index_to_linear`, `linear_to_index`, loops over lists of `Int` | induction on dimension; equality with a recursive column-major spec |
| C02 | `TileTraits` constructor | induction on shape |
| C03 | `TensorTraits` grid/leftover/get_tile_shape | division algorithm per dimension, induction on dimension |
| C04 | `TensorTraits`, `Tensor` constructors and tile access | case analysis + C01/C03 |
| C05 | `block_cyclic` incl. UB outcomes | mixed-radix bound; negation witnesses for UB inputs |
| C06 | `CORE_rnd64_jump` over `BitVec 64` | invariant of the binary-power loop, affine maps |
| C07 | `randn` kernel odometer, `randn_async` | loop invariant: state = jump to the linear offset of the current element |
| C08 | `subcopy` kernel odometer | loop invariant: first k elements (in column-major box order) copied |
| C09 | `scatter_async`, `gather_async` as task lists | C08 + C03 |
| C10 | `copy_intersection_async` (tile and tensor) | C08 + per-dimension interval arithmetic |
| C11 | element-wise kernels and tensor loops | generic element-wise refinement theorem |
| C12–C15 | slice/fiber kernels and tensor loops | `forN` invariants; `lin_append` |
| C16 | norm_slice, hypot, nrm2 | scaled-ssq invariant over ℝ |
| C17 | gemm check and loop nest | tile offset arithmetic; block-matrix sum |
| C18 | transpose | `lin_append` |
| C19,C20 | maxsumexp/softmax kernels over ℝ with infinities | invariant; commutative-monoid structure |
| C21–C23 | mask, embedding, loss kernels | `forN` invariants |
| C24 | adam/adamw step | induction over iterations |
| C25 | activations over ℝ | `HasDerivAt` |
| C26 | task model | adjacent-swap commutation |
| C27 | replicas/merge tree | commutative monoid |
| C28 | access modes wipe buffers to `none` | corollary of "ok" results from undefined buffers |
| C29 | codelet state machine | induction over op list |
| C30 | byte-level encoder/decoder | round-trip |
| C31 | kernel, submit, tensor loop; XReal arithmetic | invariant scale²·ssq = sum of squares; induction over tiles |
| C32 | kernel, submit, tensor loop; XReal arithmetic | exact characterisation: NaN for slices of zeros (refutes the property), promised value for all others; composition with C31 |
| C33 | Model/Layer.lean (sequence of asynchronous calls), Model/Linear.lean over the tensor functions of C13, C15, C17; gradients specified by derivatives (Spec/Layer.lean IsGrad) | composition of the Computes theorems; IsGrad by HasDerivAt of affine maps and reordering of sums over boxes |
| C34 | Model/LayerNorm.lean: __init__, generate_simple, forward_async, backward_async as sequences of the modelled tensor operations | C11-C16 composed with St; HasDerivAt of one normalized slice summed over the slices |
| C35 | Model/SimpleLayers, Model/Linear, Model/LayerNorm: attributes, generate_simple, forward_async, backward_async as sequences of tensor operations; Spec/Network: the contract NetLayer.Correct (function, curve-wise VJP, frame) | per layer from the operation theorems C09-C25, C33, C34; derivatives with Mathlib |
| C36 | Model/BaseModel: lists of layers, dynamic dispatch; Spec/Network: netEnv (composed function), IsNetVJP | induction over the list of layers with the invariant that partially accumulated gradients of all tensors are the VJP of the remaining suffix |
| C38 | Model/BaseModel: append with the semantics of Python list.append | append refuted: propagation works, but clearing of gradients raises AttributeError for every model and layer |
| C37 | Model/DeepModels: constructors with their loops and running tag | loop invariant Grown/Inner: the layers so far form a network with fresh identities and the last activation has the specified value; DeepLinear with ndim >= 2 refuted (always raises because of the default bias) |
| C39 | Frob.generate, Frob.calcAsync as sequence of the modelled tensor operations; gradient specified by derivatives along all differentiable curves (IsLossGrad) | composition of C09_copy, C11_axpy, C16_nrm2, C11_prod, C11_scal_inplace over ℝ; calculus in Mathlib |
| C40 | CrossEntropy.generate, CrossEntropy.calcAsync over the modelled tensor operations with real arithmetic | composition of C19_maxsumexp_real, C20, C23; gradient by Mathlib calculus |
| C41 | SGD.init, SGD.stepAsync over the modelled axpy, copy, scal_inplace; step number as argument | induction over the parameters with disjoint tensors; the rule sgdRule is stated for one real number |
| C42 | Adam, Fused (attributes), init and step of the three classes over the modelled tensor operations and the adam_step/adamw_step models of C24 | per-element identity (square roots of second moments), then the loop lemma over parameters with disjoint tensors |
| C43 | Adam.stepAsync with amsgrad | false: the code divides by the bias correction where it should multiply (refuted with a one-number example); proved: it is AMSGrad with learning rate lr/(1-beta2^k) in step k |
| C44 | Model/Pipeline: train_async with minibatch loop, optimizer step and get_val; Spec/Pipeline: trainRun, a recursion over batches with the derivative of the batch loss and the optimizer's rule | C44_batch from C36 (layers), C39/C40 (losses), C41/C42 (optimizers) by invariants over minibatches; C44_train by induction over batches and epochs |
| C45 | same model; Frob has no attribute get_val | refuted: C45_frob_train_refuted, train_async never returns normally when there is a batch; C45_frob_first_batch_partial: the first batch is processed correctly before the exception |
| C47 | Model/Attention.lean: generate_simple, __init__, forward_async, backward_async as sequences of the modelled tensor operations | composition of the theorems about gemm, transpose, maxsumexp, softmax, mask_scalar, sumprod_slice, add_slice, prod, add_fiber, sum_fiber; adjoints of each part by finite sums; extended reals for the mask value minus infinity |
| C49 | Model/Flash.lean: the four fused codelets and the loops over tiles that submit them | refinement: per-tile folds of the separate operations (Lib/Fusion, Lib/FusionOps) are equal to the fused kernels; values from C17, C19, C20 over the reals (Lib/FlashReal, Lib/FlashRealBwd) |
| C50 | Model/FlashLayer.lean on top of Model/Attention.lean and Model/Flash.lean | contract NetLayer.Correct of C36; forward and backward refine to C49; Jacobian as in C47 |
| C51 | as C50 | partial theorem from C50; refutations: the scratch buffer of the last tile is smaller than what the codelet writes (Lib/FlashUneven), TypeError without a mask |
| C52 | Model/Cuda.lean: threads as programs over global and shared memory, small-step interleaving semantics; Model/CudaKernels.lean: the kernels with their launch configurations and 32-bit index arithmetic | general theorem: if every location written belongs to one thread, all interleavings work and give the sequential result (Lib/CudaRun); reduction of the CPU loop nests to items with disjoint footprints (Lib/CudaItems, CudaGroup); injectivity of thread indices (Lib/CudaGrid) |
| C53 | Model/Cuda.lean with atomicAdd; Model/CudaKernels.lean | the general theorem of C52 with locations touched only by commuting atomic additions; algebra over the reals |
| C55 | Model/CudaBarrier.lean on top of the interleaving semantics of Model/Cuda.lean with __syncthreads and volatile loops | a general theorem about phases between barriers: locations owned by a thread, only added to atomically, raised by the volatile loop, or read only (Lib/CudaBlock, CudaGridB, CudaTerm, CudaWorks); then sums over threads equal the sums of the CPU loops (Lib/CudaBlockSum, CudaSliceSum, CudaFiberSum, CudaNorm, CudaSoftmax, CudaMse) |
| C54 | Model/CudaKernels.lean, Model/CudaBarrier.lean | explicit executions and invalid launches (Lib/CudaExec); the parts that hold are C52, C53, C55 |
| C56 | Model/OptimState.lean: loops of save_state and load_state on the models of to_array and from_array; pickle is the identity, torch types are arbitrary roundings | loop invariants over the lists of moments with C46_to_array and C46_from_array; resumed training by the invariant of C42 |
| C57 | Model/OptimState.lean, as C56 | refuted: general theorems about what happens instead, and a concrete counterexample for amsgrad; C57_amsgrad_partial for one parameter |
| C58 | Model/Tile.lean: 50 functions of src/tile with their own checks and sizes; Spec/Tile.lean: one-tile tensor, SameOutcome | relational combinators (SimM) over the two call sequences; the loops of the tensor function collapse for one tile |
| C59 | Model/Tile.lean, as C58 | C59_*_partial under the additional conditions; C59_*_refuted by concrete tiles and contents |
| C48 | Model/Gpt2.lean: GPT2Model.__init__ on top of the constructors of the layers, from_array for the mask | invariant of the list of layers under adding a layer (Lib/Build, Lib/BuildGpt), induction over blocks; propagation from C36; causality and limit by induction over blocks of the closed form |
| C60 | Model/Torch.lean: the loops over named_parameters with the dispatch on parts of the names, numpy slices, transpositions and reshapes in C order, from_array / to_array of Model/Numpy; Spec/Torch.lean: which element of which PyTorch parameter an element of an NNTile parameter is | invariant: parameters up to nntile_p_idx are loaded; induction over the blocks; row-major / column-major index arithmetic |
| C61 | Model/Torch.lean and Model/Gpt2.lean (constructor and forward propagation, C48); Spec/Torch.lean: torchGpt, written from the PyTorch definition with the joint projection of size 3*embed_dim | C60 for the parameters, C48 for forward propagation, and the equality of the two formulas (C61_function) |
| C46 | Model/Numpy, Model/TileNumpy: the functions with their checks, temporary single-tile tensor, memcpy, scatter and gather | C46_to_array, C46_from_array from the scatter/gather theorems (C06); round trips; C46_rejects; the same for single tiles (C46_tile_*) |
| C62 | Model/Mixer.lean: GAP, MixerMlp, Mixer, MlpMixer with constructor, forward_async, backward_async, clear_gradients; Spec/Mixer.lean: mixOut | the layers are parts of a network (C35/C36); a residual connection is shown to be equivalent to a layer with one more operand although its backward tasks come later (SegBack); segments compose by the chain rule; induction over the mixer layers |
| C65 | Model/Handle.lean: a state machine of handles, local objects, shared pointer counters, outstanding acquisitions and the log of StarPU calls; Spec/Handle.lean counts owners among the objects | invariant: counter = number of owners, and the log of every data has the form register, uses, (unregister); preserved by every operation; induction over histories |
| C66 | Model/Handle.lean, with undefined behaviour and waiting forever as outcomes of their own | invariant: outstanding acquisitions of a data = local objects which hold one; explicit histories refute the undisciplined cases |
| C67 | Model/Index64.lean: the code of Model/Traits with every arithmetic result checked to fit; overflow is undefined behaviour | induction over dimensions: intermediate values are bounded by the number of elements |
| C68 | Model/Index64.lean: sizes in size_t modulo 2^64 | arithmetic modulo 2^64: size / sizeof(T) == nelems exactly if nothing wrapped |
| C69 | Model/DeepTorch.lean on top of Model/DeepModels, Model/Torch (numpy arrays) and Model/Numpy; Spec/DeepTorch.lean has the function of the PyTorch MLP, written batch first | shapes of all parameters from the constructor (C37), loading by induction over the parameters, forward by C38, then equality of both recursions |
| C70 | Model/DeepTorch.lean (mlpLoads), Model/DeepModels (gpt2Mlp) | as C69 |
| C71 | Model/Patching.lean: the loops and slice assignments over arrays with undefined elements (torch.empty) | loop invariant: all elements assigned so far are right; arithmetic of division with remainder for the bijection |
| C72 | Model/PyDispatch.lean: every function of tensor.py and every binding it uses, transcribed branch by branch; Spec/PyDispatch.lean: one line per function | case distinction on types of arguments, for each function |
| C73 | Model/Fp16.lean: kernels, codelets, tile and tensor level; the conversions of one element are parameters (HalfConv) | element-wise loop lemma (Lib/Elementwise), simulation for tiles, CUDA interleaving lemma (Lib/CudaEw) |
| C74 | Model/Fp16.lean: both layers with element types of tensors | composition of C73; refutations by the value which is stored |
| C75 | Model/GemmEx.lean: kernel, submission, tile and tensor level, Linear.forward_async and backward_async with fp32_fast_tf32 | simulation: a run of gemm_ex is a run of gemm on the store with rounded factors (Lib/GemmEx.lean) |
| C76 | Model/Fp16Copy.lean: the codelet on the memory seen as 4-byte units, gather and scatter of fp16_t | simulation of the kernel with longer buffers shows that success implies that all elements were inside (Lib/Fp16Copy.lean) |
| C77 | Model/Normal.lean: conversion of the state to a number and the Box-Muller formula (over Model/Rng.lean, Model/Randn.lean) | the 2^63-th iterate of the generator is x + 2^63 (64 doublings), so the period is exactly 2^64 (Lib/Period.lean); parity alternates; reals with infinities and NaN (Lib/Normal.lean) |
| C78 | Model/InitRandn.lean | randnAsync_spec per parameter, induction over the parameters; position of the infinite number of seed 100 computed by the jump function (Lib/InitRandn.lean) |
| C63 | Model/MixerTorch.lean and Model/Mixer.lean (constructor and forward propagation, C62); Spec/MixerTorch.lean: torchMixer, written from torch_models/mlp_mixer.py | the loop loads every parameter (C64); C62 for forward propagation; equality of the two formulas (C63_function); C63_square and C63_square_differs refute the case of equal sizes |
| C64 | Model/MixerTorch.lean: the loops over zip(parameters) with the decision by shape[0], transpositions, from_array / to_array of Model/Numpy | induction over the parameters with the invariant that the loaded ones hold their elements; index arithmetic of transposition |
| C79 | Model/Unregister.lean: the lists of tensors for which each unregister method is called, over the models of the constructors; Model/Handle.lean for StarPU | invariant of the constructors: each number drawn for a tensor is the number of a tensor in the lists of layers and activations (Lib/Unregister.lean, Lib/UnregisterMixer.lean); C65 for the data |
| C80 | Model/ReduxRun.lean: StarPU executing tasks with replicas (new replica initialised by the init codelet, accumulation, merging before any other access); Model/Reductions.lean: registrations by the constructors, tasks with STARPU_RW|STARPU_COMMUTE (a special case of a reduction) | invariant: contents of the tile combined with the replicas is what the sequential execution has (Lib/ReduxRun, ReduxFine, ReduxAcc); each task in reduction mode of each layer goes to a tile registered for its kind (Lib/ReduxOps, ReduxLayers, ReduxModel); bound on steps (Lib/ReduxTerm) |
| C81 | Model/Frozen.lean: constructors, loss and clearing with gradients that may be None; the layers, models and optimizers of the other modules | each use of such a gradient stands behind its flag (Lib/Frozen); witnesses for the refuted parts |
| C82 | Model/NdArray.lean: numpy arrays as views of memory, conversion of arguments by pybind11 (as documented by pybind11 and numpy) | C46 for the converted array; Fortran-contiguous strides address the elements in linear order (Lib/NdArray); witnesses for the refuted part |
| C83 | Model/Runtime.lean: main thread and workers as a transition system with the documented behaviour of StarPU (sequential consistency of handles) | invariant: the unfinished tasks, executed in order, lead from the present store to the store of the program without concurrency; commutation of tasks without conflict; induction over histories |
| C84 | Model/BlockingLayer.lean: the two methods as programs of the runtime of Model/Runtime.lean, with lookup of global names | C83 for the tasks which are submitted; the refuted parts by the definition of the methods, with a linear layer whose gradient stays unchanged |
| C85 | Model/TrainRuntime.lean: the loop as a program of the runtime of Model/Runtime.lean | C83 (all reads are right, invariant of unfinished tasks) with C44; existence of a history by execution of all tasks before each read |
| C86 | Model/Config.lean: constructor, copy, shutdown and destructor over counters of StarPU | invariant over all scoped programs; explicit shutdown before the destructor and copies are refuted (C86_*_refuted) |
| C87 | Model/NumpyRuntime.lean: the actions of the main thread in both functions, and programs of them, over the runtime of Model/Runtime.lean | simulation piece by piece (C83), existence of a history, composition with C46 (C87_exchange, C87_round_trip) |
| C88 | Model/DeepReluMp.lean: the constructor up to line 40 (the rest is an arbitrary action), from_torch with its parameter checks, names looked up in the module | case analysis; refuted (C88_new_refuted, C88_never_refuted, C88_from_torch_refuted) |
| C89 | Model/Generate.lean: the prompt and the loop with Python's negative indices; the function which the model computes is a parameter | induction over the tokens with causality (C48_causal); refuted in part (C89_refuted, C89_one_token_refuted, C89_last_token_refuted, C89_lines_refuted) |
| C90 | Model/Generate.lean: gptBatches | arithmetic of positions (C90_batches, C90_once, C90_left) |
| C91 | Model/Generate.lean: imageBatches (numbers of images; for patches see C71) | induction over blocks of consecutive numbers (C91_once_partial, C91_bounds_partial); refuted for minibatches which do not fill the batches (C91_left_refuted) |
