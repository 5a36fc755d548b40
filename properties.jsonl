{"id": "C01", "title": "Tile index conversion is a bijection", "statement": "For a tile of any shape, converting an in-range linear offset to a multi-index and back returns the same offset, converting an in-range multi-index to a linear offset and back returns the same multi-index, offsets lie in [0,nelems), elements are laid out contiguously in column-major order (first index fastest, consecutive strides), and every wrong-dimension or out-of-range argument is rejected with an exception instead of producing an offset.", "quantifier": "all tile shapes of every dimension and every linear offset / multi-index, including negative and too long ones", "why_tests_cant": "the set of shapes and indices is unbounded in both dimension and size; tests sample a few shapes of dimension <= 4", "anchors": ["include/nntile/tile/traits.hh:TileTraits::index_to_linear", "include/nntile/tile/traits.hh:TileTraits::linear_to_index", "include/nntile/tile/traits.hh:TileTraits::contains_index"]}
{"id": "C02", "title": "Tile construction accepts exactly positive shapes and computes consistent metadata", "statement": "Constructing tile traits succeeds if and only if every extent is positive; then nelems is the product of the extents, stride[i] is the product of the extents before i, and each matrix view matrix_shape[i] is (product of the first i extents, product of the rest), so that rows*cols = nelems for every split.", "quantifier": "all integer shape vectors", "why_tests_cant": "every split of every shape must agree, an unbounded family", "anchors": ["include/nntile/tile/traits.hh:TileTraits::TileTraits", "include/nntile/tile/traits.hh:TileTraits::_check_shape"]}
{"id": "C03", "title": "The tiling partitions the tensor", "statement": "For every tensor shape and basetile shape, each element of the tensor belongs to exactly one tile at exactly one local position, each tile is non-empty and no larger than the basetile, the tile sizes add up to the number of elements of the tensor, and asking for the shape of a tile outside the grid is rejected.", "quantifier": "all tensor shapes, basetile shapes (divisible or not, larger than the shape or not), all elements and all tile indices", "why_tests_cant": "boundary (leftover) tiles occur in every combination of dimensions; tests only sample divisibility patterns", "anchors": ["include/nntile/tensor/traits.hh:TensorTraits", "include/nntile/tensor/traits.hh:TensorTraits::get_tile_shape"]}
{"id": "C04", "title": "Tensor construction validates its arguments", "statement": "Constructing tensor traits succeeds exactly when shape and basetile have the same dimension and all entries of both are positive; constructing a tensor additionally requires a distribution with exactly one rank per tile; then linear tile access succeeds exactly inside [0,number of tiles) and tile i has exactly the shape of the i-th (column-major) grid cell.", "quantifier": "all shapes, basetiles, distributions, tile offsets", "why_tests_cant": "unbounded family of shapes and invalid arguments", "anchors": ["include/nntile/tensor/tensor.hh:Tensor::Tensor", "include/nntile/tensor/tensor.hh:Tensor::get_tile", "include/nntile/tensor/traits.hh:TensorTraits::_get_grid"]}
{"id": "C05", "title": "Block-cyclic distribution gives valid, periodic ranks", "statement": "block_cyclic returns one rank per tile of the grid, every rank lies in [0,max_rank), tiles whose indices agree modulo the node grid get equal ranks, and the whole assignment shifts cyclically with start_rank; malformed arguments are rejected rather than causing undefined behaviour.", "quantifier": "all grids, node grids, start ranks and max ranks", "why_tests_cant": "arithmetic over all grids; invalid arguments reaching undefined behaviour are not observable by passing tests", "anchors": ["src/tensor/distributions.cc:block_cyclic"]}
{"id": "C06", "title": "Random generator jump-ahead is exact", "statement": "Jumping the generator by n draws of a normal number yields exactly the state reached by performing 2n single uniform draws, jumps compose additively, and drawing is a deterministic function of the state.", "quantifier": "all 64-bit seeds and all jump lengths below 2^63", "why_tests_cant": "2^64 seeds x 2^63 lengths; a jump error appears only for particular bit patterns of n", "anchors": ["external/random.h:CORE_rnd64_jump", "external/random.h:CORE_slaran", "external/random.h:CORE_dlaran"]}
{"id": "C07", "title": "randn is reproducible for every sub-box and every tiling", "statement": "The value written to an element by randn depends only on the seed, the underlying shape and the global position of the element: generating any sub-box gives exactly the corresponding slice of the full underlying array, hence the generated tensor does not depend on how it is cut into tiles, and elements outside of the tile are untouched.", "quantifier": "all seeds, underlying shapes, start offsets, tile shapes, strides, tilings", "why_tests_cant": "gap jumps in the odometer occur in unboundedly many shape/offset combinations", "anchors": ["src/kernel/randn/cpu.cc:cpu", "src/tensor/randn.cc:randn_async"]}
{"id": "C08", "title": "subcopy copies exactly the requested box", "statement": "The subcopy kernel writes dst[dst_start+i] = src[src_start+i] for every i in the copy box and writes no other element of dst, never touching memory outside of either tile when both boxes fit.", "quantifier": "all dimensions, strides, starts, box shapes and contents", "why_tests_cant": "odometer carries occur in unboundedly many shapes", "anchors": ["src/kernel/subcopy/cpu.cc:cpu", "src/tile/copy_intersection.cc:copy_intersection_async"]}
{"id": "C09", "title": "scatter and gather are exact inverses through any tiling", "statement": "Scattering a single-tile tensor into any tiling stores every element at its own position with no undefined element left, and gathering restores the single tile exactly; gather(scatter(x)) = x.", "quantifier": "all shapes, all basetiles, all contents", "why_tests_cant": "all tilings incl. leftovers; undefined data from write-only access modes shows up only under particular memory reuse", "anchors": ["src/tensor/scatter.cc:scatter_async", "src/tensor/gather.cc:gather_async"]}
{"id": "C10", "title": "copy_intersection updates exactly the intersection", "statement": "copy_intersection of two differently-tiled tensors placed at arbitrary (also negative) offsets copies each element of the intersection to the same global position, leaves every other destination element unchanged, and does nothing when the intersection is empty.", "quantifier": "all dims, shapes, tilings, offsets and contents", "why_tests_cant": "overlap patterns between two tilings are unbounded; the write-only vs read-write choice per tile matters only for particular overlaps", "anchors": ["src/tensor/copy_intersection.cc:copy_intersection_async", "src/tile/copy_intersection.cc:copy_intersection_async"]}
{"id": "C11", "title": "Element-wise tensor operations do not depend on the tiling", "statement": "Each element-wise tensor operation (fill, clear, copy, scal, scal_inplace, add, add_scalar, axpy, prod, addcdiv, hypot, pow, sqrt, maximum, relu and gelu families) accepts exactly operands of the same shape and tiling, changes exactly the output tensor(s), and gives at each global position the scalar formula applied to the operands' values at that position.", "quantifier": "all shapes, tilings, contents, scalars and arithmetic (bit-exact for any scalar arithmetic)", "why_tests_cant": "all shapes/tilings; operations on tiles must commute with the tiling", "anchors": ["src/tensor/add.cc:add_async", "src/tensor/fill.cc", "src/tensor/scal.cc", "src/tensor/prod.cc", "src/tensor/addcdiv.cc", "src/tensor/hypot.cc", "src/kernel/add/cpu.cc"]}
{"id": "C12", "title": "Slice broadcast operations", "statement": "add_slice computes dst[i,l,j] = beta*dst[i,l,j] + alpha*src[i,j], add_slice3 dst = alpha*src1[i,j] + beta*src2[i,l,j], prod_slice dst[i,l,j] *= alpha*src[i,j], for every axis and tiling, without reading dst when beta is zero and without touching any other tensor.", "quantifier": "all dims, axes, shapes, tilings, scalars, contents", "why_tests_cant": "unbounded shapes/axes/tilings", "anchors": ["src/tensor/add_slice.cc:add_slice_async", "src/tensor/add_slice3.cc", "src/tensor/prod_slice.cc", "src/kernel/add_slice/cpu.cc:cpu"]}
{"id": "C13", "title": "Fiber broadcast operations", "statement": "add_fiber computes dst[i,l,j,b] = beta*dst[i,l,j,b] + alpha*src[l,b] and prod_fiber/prod_fiber3 the analogous products, for every axis, batch dimension and tiling and all scalars.", "quantifier": "all dims, axes, batch dims, shapes, tilings, scalars, contents", "why_tests_cant": "unbounded shapes/axes/tilings; scalar special cases", "anchors": ["src/tensor/add_fiber.cc:add_fiber_async", "src/tensor/prod_fiber.cc", "src/tensor/prod_fiber3.cc", "src/kernel/add_fiber/cpu.cc:cpu"]}
{"id": "C14", "title": "Slice reductions are exact and tiling-independent", "statement": "sum_slice and sumprod_slice compute dst[i,j] = beta*dst[i,j] + alpha*sum_l src[i,l,j] (or of products), whatever the tiling of the reduced axis, with the beta factor applied exactly once and the previous dst not read when beta is zero (exact arithmetic).", "quantifier": "all dims, axes, shapes, tilings, scalars, contents", "why_tests_cant": "unbounded number of tiles along the reduced axis", "anchors": ["src/tensor/sum_slice.cc:sum_slice_async", "src/tensor/sumprod_slice.cc", "src/kernel/sum_slice/cpu.cc:cpu", "src/kernel/sumprod_slice/cpu.cc:cpu"]}
{"id": "C15", "title": "Fiber reductions are exact and tiling-independent", "statement": "sum_fiber and sumprod_fiber compute dst[l,b] = beta*dst[l,b] + alpha*sum_{i,j} src[i,l,j,b] (or of products), whatever the tiling, with beta applied exactly once (exact arithmetic).", "quantifier": "all dims, axes, batch dims, shapes, tilings, scalars, contents", "why_tests_cant": "unbounded number of tiles on both sides of the axis", "anchors": ["src/tensor/sum_fiber.cc:sum_fiber_async", "src/tensor/sumprod_fiber.cc", "src/kernel/sum_fiber/cpu.cc:cpu"]}
{"id": "C16", "title": "Norm reductions are Euclidean norms", "statement": "norm_slice gives dst[i,j] = hypot(beta*dst[i,j], alpha*||src[i,:,j]||), nrm2 the Euclidean norm of the whole tensor scaled by alpha and combined with beta*dst, independent of the tiling (exact arithmetic), and never negative.", "quantifier": "all shapes, axes, tilings, scalars, contents", "why_tests_cant": "the scaled sum-of-squares recurrence has data-dependent branches; all data orders", "anchors": ["src/kernel/norm_slice/cpu.cc:cpu", "src/tensor/norm_slice.cc", "src/tensor/nrm2.cc", "src/kernel/hypot/cpu.cc"]}
{"id": "C17", "title": "gemm computes C = alpha*op(A)*op(B) + beta*C over any tiling", "statement": "For every transposition pair, contraction ndim, batch ndim, shape and tiling accepted by the argument check, tensor gemm computes for each batch the contraction of op(A) and op(B), scaled by alpha, plus beta*C with beta applied once, accessing only existing tiles; every mismatching argument is rejected.", "quantifier": "all transpositions, ndim, batch_ndim, shapes, tilings, scalars, contents", "why_tests_cant": "unbounded tile grids; offset arithmetic of tiles", "anchors": ["src/tensor/gemm.cc:gemm_check", "src/tensor/gemm.cc:gemm_async", "src/tile/gemm.cc"]}
{"id": "C18", "title": "transpose is exact and involutive", "statement": "transpose writes dst[j,i] = alpha*src[i,j] for the split of dimensions it is given, for every tiling, and transposing twice with alpha=1 gives the original.", "quantifier": "all dims, split ndim, shapes, tilings, contents", "why_tests_cant": "unbounded shapes/tilings", "anchors": ["src/tensor/transpose.cc", "src/kernel/transpose/cpu.cc:cpu"]}
{"id": "C19", "title": "maxsumexp equals (max, sum exp(x-max)) for every partition and order", "statement": "Starting from a cleared accumulator, maxsumexp over any tiling of the axis, in any order of the tiles and any reduction tree, yields the maximum of the non-masked entries and the sum of exp(x-max); masked (-inf) entries contribute nothing, and a row with all entries masked leaves the accumulator cleared (exact arithmetic).", "quantifier": "all data, mask patterns, tile partitions, schedules and reduction trees", "why_tests_cant": "reduction order is chosen by the runtime; unbounded partitions", "anchors": ["src/kernel/maxsumexp/cpu.cc:cpu", "src/kernel/accumulate_maxsumexp/cpu.cc:cpu", "src/tensor/maxsumexp.cc"]}
{"id": "C20", "title": "softmax from maxsumexp is a probability distribution", "statement": "After maxsumexp, softmax gives alpha*exp(x_l)/sum exp(x) for non-masked entries and 0 for masked ones, so with alpha=1 entries are in [0,1] and sum to one over the axis whenever one entry is not masked, and adding a constant along the axis does not change the result.", "quantifier": "all data, masks, axes", "why_tests_cant": "real-valued identity for all data", "anchors": ["src/kernel/softmax/cpu.cc:cpu", "src/kernel/softmax_inplace/cpu.cc:cpu", "src/kernel/logsumexp/cpu.cc"]}
{"id": "C21", "title": "mask_scalar overwrites exactly masked entries", "statement": "mask_scalar sets every element whose mask entry is false to the given value in all batches and leaves every other element unchanged; applying it twice equals applying it once.", "quantifier": "all shapes, tilings, masks, values, contents", "why_tests_cant": "unbounded shapes/masks", "anchors": ["src/kernel/mask_scalar/cpu.cc:cpu", "src/tensor/mask_scalar.cc:mask_scalar_async"]}
{"id": "C22", "title": "embedding looks up vocabulary rows and its backward is the adjoint", "statement": "embedding writes the vocabulary vector of each token at the token's position in the embedding tensor, for every tiling of the embedding axis, and embedding_backward adds to each vocabulary vector the sum of the gradient vectors of its occurrences; ill-shaped arguments are rejected.", "quantifier": "all index tensors, vocabularies, axes, shapes, tilings", "why_tests_cant": "unbounded shapes; argument checks must cover every dimension", "anchors": ["src/tensor/embedding.cc:embedding_async", "src/tensor/embedding_backward.cc", "src/kernel/embedding/cpu.cc:cpu", "src/kernel/embedding_backward/cpu.cc:cpu"]}
{"id": "C23", "title": "cross-entropy loss and its gradient", "statement": "total_sum_accum adds alpha*sum_i(logsumexp_i - x[label_i,i]) to the scalar, over any tiling, and subtract_indexed_outputs subtracts val from exactly the entries selected by the labels.", "quantifier": "all label tensors, logits, tilings", "why_tests_cant": "unbounded shapes; all labels", "anchors": ["src/kernel/total_sum_accum/cpu.cc:cpu", "src/kernel/subtract_indexed_outputs/cpu.cc:cpu", "src/tensor/total_sum_accum.cc"]}
{"id": "C24", "title": "Adam and AdamW steps implement the published recurrences", "statement": "For every number of steps and every gradient sequence, repeatedly calling the Adam (AdamW) step with iteration numbers 1,2,... produces exactly the parameters and moments of the Adam (AdamW) recurrences with bias correction, the stored second moment being the square root of the standard one, and the first step does not read the uninitialised moments (exact arithmetic).", "quantifier": "all step counts, gradient sequences, hyper-parameters with 0<=beta<1, initial parameters", "why_tests_cant": "the recurrence must hold for unbounded iteration counts", "anchors": ["src/kernel/adam_step/cpu.cc:cpu", "src/kernel/adamw_step/cpu.cc:cpu", "src/tensor/adam_step.cc"]}
{"id": "C25", "title": "Activation functions agree with their formulas and derivatives", "statement": "gelutanh computes x/2*(1+tanh(sqrt(2/pi)(x+0.044715x^3))), relu computes max(x,0), and each backward kernel adds dy times the derivative of the forward function (exact arithmetic, away from the kink of relu).", "quantifier": "all real inputs", "why_tests_cant": "a real-analysis identity for every real input", "anchors": ["src/kernel/gelutanh/cpu.cc:cpu", "src/kernel/gelutanh_backward/cpu.cc:cpu", "src/kernel/dgelutanh/cpu.cc", "src/kernel/relu_backward/cpu.cc", "src/kernel/gelu/cpu.cc"]}
{"id": "C26", "title": "Results do not depend on the task schedule", "statement": "For any sequence of submitted tensor operations, every execution order of their tile tasks that respects the declared access modes (read/write dependencies in submission order) leaves every tile with exactly the contents produced by sequential execution.", "quantifier": "all task sequences, all dependency-respecting schedules", "why_tests_cant": "the number of schedules is factorial in the number of tasks and chosen by the runtime", "anchors": ["src/starpu/*.cc:submit", "include/nntile/starpu/config.hh:Handle", "src/tensor/*.cc"]}
{"id": "C27", "title": "Reduction-mode execution equals sequential accumulation", "statement": "When a tile task sequence accumulates into a tile in the runtime's reduction mode, any assignment of the tasks to replicas, any order inside of replicas and any order of merging replicas gives the same result as executing the tasks one after another (exact arithmetic), for sums, maxsumexp and hypot accumulations.", "quantifier": "all task multisets, replica assignments, orders and merge trees", "why_tests_cant": "schedules and replica assignments are unbounded and runtime-chosen", "anchors": ["src/starpu/accumulate.cc", "src/starpu/accumulate_maxsumexp.cc", "src/starpu/accumulate_hypot.cc", "src/starpu/sum_slice.cc:submit"]}
{"id": "C28", "title": "Access modes are sufficient for what tasks read", "statement": "No tensor operation ever reads tile contents that its submitted access mode leaves undefined: whenever a tile is submitted in write-only mode the kernel overwrites every element without reading any.", "quantifier": "all operations, scalars, tile shapes", "why_tests_cant": "undefined contents are often benign in tests (zeroed or stale but plausible memory)", "anchors": ["src/starpu/add_slice.cc:submit", "src/starpu/gemm.cc:submit", "src/starpu/adam_step.cc:submit", "src/starpu/scal.cc"]}
{"id": "C29", "title": "Restricting and restoring codelet execution targets", "statement": "Restricting a codelet to a subset of devices never enables a device for which no implementation was registered, restoring brings back exactly the original set after any history of restrictions, and a restriction to an unsupported device leaves the current setting unchanged.", "quantifier": "all initial device sets and all histories of restrict/restore", "why_tests_cant": "histories are unbounded", "anchors": ["include/nntile/starpu/config.hh:Codelet::restrict_where", "include/nntile/starpu/config.hh:Codelet::restore_where"]}
{"id": "C30", "title": "Task arguments are decoded exactly as encoded", "statement": "For every list of packed task arguments, decoding the packed buffer gives back exactly the packed byte strings, and a request for more arguments than packed is not answered with garbage.", "quantifier": "all argument lists", "why_tests_cant": "unbounded number and sizes of arguments", "anchors": ["include/nntile/starpu/config.hh:Config::unpack_args_ptr"]}
{"id": "C31", "title": "sumnorm gives the sum and the Euclidean norm of every slice", "statement": "sumnorm(src, dst, axis) overwrites dst with the pair (sum, Euclidean norm) of every slice of src along axis, whatever dst held before and however the tensors are cut into tiles; no division by zero, infinity or NaN arises for finite data. Arguments that do not fit are rejected.", "quantifier": "all shapes, tilings, axes, data", "why_tests_cant": "the result must not depend on the tiling, on the order of the values in a slice or on zeros among them", "anchors": ["src/tensor/sumnorm.cc:sumnorm_async", "src/kernel/sumnorm/cpu.cc:cpu"]}
{"id": "C32", "title": "normalize renormalizes slices", "statement": "normalize(gamma_beta, sums, dst, l, eps, axis) replaces every element x of dst by (x-mean)/sqrt(var+eps)*gamma+beta with mean=sum/l, var=norm^2/l-mean^2, and after sumnorm of dst this is the layer normalisation of dst; the result is finite for finite data because eps > 0.", "quantifier": "all shapes, tilings, axes, data, l>0, eps>0", "why_tests_cant": "includes degenerate slices (constant, all zero) and any tiling", "anchors": ["src/tensor/normalize.cc:normalize_async", "src/kernel/normalize/cpu.cc:cpu"]}
{"id": "C33", "title": "The linear layer computes its product and its exact gradients", "statement": "For every consistent linear layer (side 'L' or 'R', transposed or plain input, with or without bias, any number of feature dimensions, any tiling) forward_async makes y = op(x)*w + b (or w*op(x) + b), and backward_async adds to every required gradient (of x, w and b) exactly the gradient of <dy, y> with respect to that operand, where dy is the gradient received for y, changing nothing else. generate_simple always returns a consistent layer for valid arguments and raises an exception for non-positive ndim, for a bias with several output dimensions and for unfitting output tilings.", "quantifier": "all sides, transpositions, shapes, tilings, numbers of contracted dimensions, contents of the operands and of the gradient accumulators", "why_tests_cant": "a numerical gradient check covers a few shapes; index patterns of the three contractions must be right for every dimension split and every tiling including border tiles", "anchors": ["wrappers/python/nntile/layer/linear.py:Linear.forward_async", "wrappers/python/nntile/layer/linear.py:Linear.backward_async", "wrappers/python/nntile/layer/linear.py:Linear.generate_simple"]}
{"id": "C34", "title": "Layer normalization computes its definition and its exact gradients", "statement": "For every input tensor, tiling and valid axis, LayerNorm.generate_simple builds a layer (gamma=1, beta=0) whose forward_async leaves y = gamma*(x-mean)/sqrt(var+eps)+beta with mean and variance over the axis, and whose subsequent backward_async adds to x.grad, gamma.grad and beta.grad the exact gradients of <dy, y> over x, gamma and beta; nothing but results and temporaries of the layer changes; an invalid axis raises an exception.", "quantifier": "all shapes, tilings, axes, positive eps, contents of the tensors, with and without reductions, with and without invalidation of temporaries", "why_tests_cant": "a test compares a few shapes with finite differences or PyTorch in finite precision; the claim is the derivative identity for every shape, every tiling and every content", "anchors": ["wrappers/python/nntile/layer/layer_norm.py:LayerNorm.generate_simple", "wrappers/python/nntile/layer/layer_norm.py:LayerNorm.forward_async", "wrappers/python/nntile/layer/layer_norm.py:LayerNorm.backward_async"]}
{"id": "C35", "title": "Each layer computes its function and accumulates its vector\u2013Jacobian product", "statement": "For the activation, Add, AddSlice, Embedding, Linear and LayerNorm layers of the Python API: forward_async computes the mathematical function of the layer from its input and parameter tensors, whatever garbage the output and temporary tensors contain, and changes no other tensor; a later backward_async adds to the gradients of inputs and parameters exactly the product of the transposed Jacobian of that function and the gradient of the output (nothing is overwritten), and changes no other tensor. Layers built by generate_simple satisfy the preconditions; bad arguments raise an exception.", "quantifier": "all layers, tensor shapes, tilings, contents, old gradients, directions of differentiation", "why_tests_cant": "Unit tests compare with one framework on a few shapes and random values with zero initial gradients; they cannot show that the accumulated gradient is the derivative for all inputs nor that nothing else is modified.", "anchors": ["wrappers/python/nntile/layer/act.py: Act", "wrappers/python/nntile/layer/add.py: Add", "wrappers/python/nntile/layer/add_slice.py: AddSlice", "wrappers/python/nntile/layer/embedding.py: Embedding", "wrappers/python/nntile/layer/linear.py: Linear", "wrappers/python/nntile/layer/layer_norm.py: LayerNorm"]}
{"id": "C36", "title": "Back-propagation through a model of any depth computes the gradient", "statement": "For a model (BaseModel) of any number of layers wired as any acyclic graph, in any tiling: forward_async computes in every activation the composed function of inputs and parameters; backward_async, with gradients seeded in the activations, adds to the gradient of each input and parameter the exact derivative (vector\u2013Jacobian product of the whole network, in particular every partial derivative of <dy, output>), also when a tensor feeds several layers; clear_gradients makes all required gradients zero and changes nothing else.", "quantifier": "all layer lists, wirings, shapes, tilings, contents, seeds, old gradients", "why_tests_cant": "Correctness of reverse-mode accumulation over arbitrary graphs is a statement about all networks and all inputs; tests run one or two fixed networks.", "anchors": ["wrappers/python/nntile/model/base_model.py: BaseModel.forward_async, backward_async, clear_gradients"]}
{"id": "C37", "title": "The constructors of DeepReLU, DeepLinear and GPT2MLP build the advertised networks", "statement": "For every valid input tensor, side, number of feature dimensions, number of layers, sizes and tiles, the constructor returns a model whose layers form a network of distinct, well-formed tensors (so that propagation, gradients and clearing work as in C36), whose parameter list contains the weights and biases in layer order, and whose last activation is the advertised composition of linear maps and activation functions; invalid arguments raise an exception.", "quantifier": "all inputs, shapes, tilings, numbers of layers (unbounded), with and without bias", "why_tests_cant": "the number of layers and the shapes are unbounded, and the function computed is a statement about all inputs", "anchors": ["wrappers/python/nntile/model/deep_relu.py: DeepReLU.__init__", "wrappers/python/nntile/model/deep_linear.py: DeepLinear.__init__", "wrappers/python/nntile/model/gpt2.py: GPT2MLP.__init__"]}
{"id": "C38", "title": "A layer appended to a model takes part in everything the model does", "statement": "After BaseModel.append(layer) the model behaves as if it had been constructed with that layer: propagation includes the layer and clearing of gradients clears its output and parameters.", "quantifier": "all models and layers", "why_tests_cant": "The property is about every model and layer; the code stores lists where tensors are expected, which only shows up in later calls.", "anchors": ["wrappers/python/nntile/model/base_model.py: BaseModel.append"]}
{"id": "C39", "title": "Frobenius loss", "statement": "Frob.calc_async on tensors of any shape and tiling puts 1/2\u2016X\u2212Y\u2016\u00b2 into the loss value (replacing it) and overwrites the gradient of the network output by exactly the gradient X\u2212Y of that function; nothing but the loss value, this gradient and the temporaries changes; generate_simple always makes tensors for which this holds", "quantifier": "all shapes, tilings, contents of the output, the target and stale gradients", "why_tests_cant": "the derivative must be right at every point and for every tiling including border tiles; a test compares a few random points with a reference", "anchors": ["wrappers/python/nntile/loss/frob.py:Frob.calc_async", "wrappers/python/nntile/loss/frob.py:Frob.generate_simple", "src/tensor/nrm2.cc", "src/tensor/axpy.cc"]}
{"id": "C40", "title": "Cross entropy loss", "statement": "CrossEntropy.calc_async adds scale\u00b7\u03a3(log \u03a3_c exp X[c,J] \u2212 X[label[J],J]) to the loss value and overwrites the gradient of the output by the gradient scale\u00b7(softmax \u2212 indicator of the label) of that function; generate_simple succeeds if the classes are in one tile and raises if they are in several", "quantifier": "all shapes and tilings of the labels, contents, labels in range, redux settings", "why_tests_cant": "softmax shift invariance, derivative identities and tile accumulation must hold for all inputs", "anchors": ["wrappers/python/nntile/loss/crossentropy.py:CrossEntropy.calc_async", "wrappers/python/nntile/loss/crossentropy.py:CrossEntropy.generate_simple", "src/tensor/maxsumexp.cc", "src/tensor/logsumexp.cc", "src/tensor/total_sum_accum.cc", "src/tensor/softmax.cc", "src/tensor/subtract_indexed_outputs.cc"]}
{"id": "C41", "title": "SGD optimizer follows gradient descent with momentum", "statement": "Each call of SGD.step() changes every element of every parameter as stochastic gradient descent (as defined by torch.optim.SGD: learning rate, momentum, dampening, Nesterov momentum, L2 regularisation) prescribes from the current gradient and the history of earlier gradients, and changes nothing but the parameters, their gradients and the optimizer's own state tensors; the initial contents of the state tensors do not matter. The constructor creates state tensors only for positive momentum.", "quantifier": "every list of parameters of any shapes and tilings, all hyper-parameters, all contents, every number of earlier steps", "why_tests_cant": "A test covers a few steps on a few tensors; the claim is about every parameter list, tiling, hyper-parameters and step number", "anchors": ["wrappers/python/nntile/optimizer/sgd.py:SGD.__init__", "wrappers/python/nntile/optimizer/sgd.py:SGD.step"]}
{"id": "C42", "title": "Adam, FusedAdam and FusedAdamW optimizers follow Adam and AdamW", "statement": "Each call of step() of Adam (without amsgrad), FusedAdam and FusedAdamW changes every element of every parameter as Adam with L2 regularisation, or AdamW, prescribes, with bias correction by the number of calls so far, the learning rate being constant or, if start_lr and full_lr_iter are given, growing linearly from start_lr in the first call to lr in call full_lr_iter; only the parameters, their gradients and the moments are changed; the initial contents of the moments do not matter.", "quantifier": "every list of parameters of any shapes and tilings, all hyper-parameters with 0<=beta<1 and eps>0, all contents, every number of earlier steps", "why_tests_cant": "A test covers a few steps on a few tensors; the claim is about every parameter list, tiling, hyper-parameters and step number", "anchors": ["wrappers/python/nntile/optimizer/adam.py:Adam.step", "wrappers/python/nntile/optimizer/adam.py:FusedAdam.step", "wrappers/python/nntile/optimizer/adamw.py:FusedAdamW.step", "src/tensor/adam_step.cc", "src/tensor/adamw_step.cc"]}
{"id": "C43", "title": "Adam with amsgrad follows AMSGrad", "statement": "Each call of Adam.step() with amsgrad=True changes the parameters as AMSGrad (the largest second moment so far takes the place of the second moment) with the learning rate lr prescribes.", "quantifier": "every list of parameters, hyper-parameters, contents and number of earlier steps", "why_tests_cant": "The deviation depends on the step number and disappears for many steps; no finite number of steps settles it", "anchors": ["wrappers/python/nntile/optimizer/adam.py:Adam.step"]}
{"id": "C44", "title": "Training follows the optimizer's rule with the gradient of the loss of each batch", "statement": "Pipeline.train_async with the cross entropy loss raises nothing, makes one optimizer step per batch and epoch, and leaves in the parameters (and in the optimizer's state) exactly the result of the update rule applied in turn with the gradient of the loss of each whole batch (the sum over its minibatches) at the parameters reached so far; loss_hist is the list of the batch losses, each before its step. Old contents of activations, gradients and loss tensors have no influence.", "quantifier": "every network of the modelled layers whose tensors fit, every tiling, data set, number of epochs, minibatches and batches, every optimizer (Empty, SGD, Adam without amsgrad, FusedAdam, FusedAdamW), every initial content", "why_tests_cant": "The claim is about the composition of all layers, the loss, gradient accumulation and the optimizer over any number of steps; a test runs one network for a few steps and compares approximately", "anchors": ["wrappers/python/nntile/pipeline.py:Pipeline.train_async", "wrappers/python/nntile/model/base_model.py:BaseModel", "wrappers/python/nntile/loss/crossentropy.py:CrossEntropy.get_val"]}
{"id": "C45", "title": "train_async works with every loss of the package", "statement": "Pipeline.train_async trains also with the Frobenius loss.", "quantifier": "every model, data set and state", "why_tests_cant": "One has to see that no execution returns, whatever the model and data", "anchors": ["wrappers/python/nntile/pipeline.py:Pipeline.train_async", "wrappers/python/nntile/loss/frob.py:Frob"]}
{"id": "C46", "title": "Exchange with numpy arrays keeps all elements", "statement": "from_array puts element I of the array at index I of the tensor (or tile), to_array puts element I of the tensor (or tile) at index I of the array, for any tiling; round trips give back the same data; arrays of a wrong shape are rejected with an exception; no other tensor (or tile) changes.", "quantifier": "every tensor or tile shape, tiling, contents; arrays in Fortran order", "why_tests_cant": "All shapes and tilings; border tiles", "anchors": ["wrappers/python/nntile/nntile_core.cc:tensor_from_array", "wrappers/python/nntile/nntile_core.cc:tensor_to_array", "wrappers/python/nntile/nntile_core.cc:tile_from_array", "wrappers/python/nntile/nntile_core.cc:tile_to_array"]}
{"id": "C47", "title": "Multi-head attention computes softmax attention and its gradients", "statement": "Attention.forward_async writes to its output, for every tiling, number of heads, with or without biases and mask and with any earlier contents of output and temporaries, the softmax attention of query, key and value (scores divided by the square root of the head size, masked scores replaced by the mask value, which with minus infinity means weight zero), and changes nothing else. backward_async afterwards adds to the gradients of inputs, weights and biases which require gradients the exact product of the transposed Jacobian with the output gradient, also when the three inputs are the same tensor, and changes nothing else. generate_simple returns such a layer exactly for consistent inputs and raises otherwise.", "quantifier": "all shapes, tilings, head counts, contents, masks, optional biases, schedules of invalidation, self- and cross-attention", "why_tests_cant": "the output depends on all elements of all operands through a chain of about twenty tensor operations; tests compare a few random shapes with PyTorch up to a tolerance", "anchors": ["wrappers/python/nntile/layer/attention.py:Attention.forward_async", "wrappers/python/nntile/layer/attention.py:Attention.backward_async", "wrappers/python/nntile/layer/attention.py:Attention.generate_simple"]}
{"id": "C48", "title": "GPT2Model is a causal transformer", "statement": "GPT2Model.__init__, with Attention (any tiling) or FlashAttention (tiles that evenly divide sequence, batch and heads), succeeds for all consistent configurations, tilings, numbers of blocks and heads; it stores the causal mask, ones in all normalization scales and zeros in all shifts; its parameters have the documented order and shapes. After forward_async the last activation holds, for all contents of the parameters and all tokens and positions in range, the output of the pre-norm transformer (embeddings, blocks of masked multi-head self-attention and MLP with residual connections, final normalization, output projection); backward_async adds the exact vector-Jacobian product to all parameter gradients. With masked scores tending to minus infinity the output at position j tends to a function of the tokens at positions up to j of the same batch element only.", "quantifier": "all configurations, tilings, depths, parameter contents, tokens and positions in range, earlier contents of temporaries", "why_tests_cant": "the wiring of dozens of layers per block through relative indices into a list is checked by tests for one small configuration against PyTorch up to a tolerance; causality is a statement about all token sequences", "anchors": ["wrappers/python/nntile/model/gpt2.py:GPT2Model", "wrappers/python/nntile/model/gpt2.py:GPT2MLP"]}
{"id": "C49", "title": "Fused attention operations equal the separate operations", "statement": "flash_maxsumexp, flash_softmax_gemm and flash_softmax_gemm_backward, on tensors whose tiles divide the sequence, batch and heads evenly, leave in their results exactly the bits which the sequence of separate operations (gemm, mask_scalar, maxsumexp, softmax_inplace, clear, sumprod_slice, add_slice, prod) leaves there, and do not touch the big score tensors; over the reals the results are the maxima and sums, the outputs of the heads, and the gradients with respect to queries, keys and values.", "quantifier": "all sizes, even tilings, contents, arithmetic (for the bits), masks", "why_tests_cant": "the equality of bits must hold for all contents and all tilings; tests compare a few random tensors with a tolerance", "anchors": ["src/tensor/flash_maxsumexp.cc:flash_maxsumexp_async", "src/tensor/flash_softmax_gemm.cc:flash_softmax_gemm_async", "src/tensor/flash_softmax_gemm_backward.cc:flash_softmax_gemm_backward_async", "src/starpu/flash_maxsumexp.cc.in:cpu", "src/starpu/flash_softmax_gemm.cc.in:cpu", "src/starpu/flash_softmax_gemm_backward_sumprod_slice.cc.in:cpu", "src/starpu/flash_softmax_gemm_backward_dq_dk.cc.in:cpu"]}
{"id": "C50", "title": "FlashAttention layer computes attention and its gradients", "statement": "A FlashAttention layer with a mask and evenly dividing tiles writes the multi-head attention of its inputs to its output whatever the temporaries contain, backward_async adds the exact vector-Jacobian products to the required gradients and nothing else changes; the output is the same as that of Attention; generate_simple creates such layers for all consistent arguments and rejects the others, and uneven tilings of the heads.", "quantifier": "all sizes, even tilings, contents, with or without biases, self- and cross-attention, earlier contents of temporaries", "why_tests_cant": "gradients are compared with finite differences or PyTorch for single small shapes in tests; the contract is about all shapes and contents", "anchors": ["wrappers/python/nntile/layer/flash_attention.py:FlashAttention"]}
{"id": "C51", "title": "FlashAttention is a drop-in replacement for Attention", "statement": "Whenever FlashAttention.generate_simple accepts its arguments, forward_async of the layer works and gives the output of Attention with the same arguments.", "quantifier": "all arguments which the constructor accepts", "why_tests_cant": "needs all shapes and tilings; tests only use evenly divided sequences with a mask", "anchors": ["wrappers/python/nntile/layer/flash_attention.py:FlashAttention", "src/tensor/flash_maxsumexp.cc:flash_maxsumexp_async"]}
{"id": "C52", "title": "Kernels without barriers give the same result on GPU as on CPU", "statement": "A task may be executed on CPU or on GPU; the scheduler decides. Whenever the CPU version of one of the element-wise, slice, fiber, transpose, mask, embedding, sumnorm, normalize, maxsumexp accumulation, logsumexp, subtract_indexed_outputs or Adam/AdamW kernels succeeds and the sizes are within the limits of CUDA, every interleaving of the GPU threads is free of undefined behaviour, data races and deadlock, terminates, and leaves all buffers exactly as the CPU version does.", "quantifier": "all sizes (within launch limits), all buffer contents (also partly undefined), all scalars, all interleavings of all threads of the grid, all arithmetics", "why_tests_cant": "a test observes one interleaving on one device for a few sizes; the number of interleavings is exponential in the number of threads and tail blocks depend on the size", "anchors": ["src/kernel/add/cuda.cu:cuda", "src/kernel/add_slice/cuda.cu:cuda", "src/kernel/prod_fiber/cuda.cu:cuda", "src/kernel/transpose/cuda.cu:cuda", "src/kernel/normalize/cuda.cu:cuda", "src/kernel/sumnorm/cuda.cu:cuda", "src/kernel/adam_step/cuda.cu:cuda", "src/kernel/embedding/cuda.cu:cuda"]}
{"id": "C53", "title": "GPU kernels with another order of operations compute the same numbers", "statement": "embedding_backward and total_sum_accum on GPU add with atomic operations in an order that depends on the interleaving, and maximum, gelutanh and pow on GPU use other formulas than on CPU. In exact arithmetic all interleavings of all threads terminate without undefined behaviour and data races and give the result of the CPU version.", "quantifier": "all sizes within launch limits, all contents, all labels and indices, all interleavings", "why_tests_cant": "collisions of atomic additions depend on repeated labels and on timing", "anchors": ["src/kernel/embedding_backward/cuda.cu:cuda", "src/kernel/total_sum_accum/cuda.cu:cuda", "src/kernel/maximum/cuda.cu:cuda", "src/kernel/gelutanh/cuda.cu:cuda", "src/kernel/pow/cuda.cu:cuda"]}
{"id": "C54", "title": "GPU and CPU versions of a kernel agree for all sizes and scalars (refuted; within bounds only)", "statement": "If the CPU version of a kernel succeeds then the GPU version gives the same result whatever the sizes and scalars. False: a launch whose grid or block exceeds the limits of CUDA runs nothing and its error is ignored, so the output silently keeps its old contents (add_fiber from 65536 indices before or after the axis, sumprod_fiber as soon as min(m,32)*min(n,32) exceeds 512, slices, mask_scalar, embedding_backward); 32-bit indices overflow for more than 2^31 elements; add_fiber with beta=0 reads uninitialised output; norm_slice does not write zero for a zero fiber; softmax has a data race with more than 65535 slices; maxsumexp may store a maximum that is not the maximum of the slice.", "quantifier": "all sizes, contents, scalars and interleavings of threads", "why_tests_cant": "tests use small sizes and nonzero data on which the two versions agree", "anchors": ["src/kernel/sumprod_fiber/cuda.cu:cuda", "src/kernel/add_fiber/cuda.cu:cuda", "src/kernel/norm_slice/cuda.cu:cuda", "src/kernel/softmax/cuda.cu:cuda", "src/kernel/maxsumexp/cuda.cu:cuda", "src/kernel/add/cuda.cu:cuda"]}
{"id": "C55", "title": "Kernels with barriers and shared memory give the same result on GPU as on CPU", "statement": "The reductions sum_slice, sumprod_slice, sum_fiber, sumprod_fiber, norm_slice and maxsumexp, and softmax and softmax_inplace, use barriers, shared memory, atomic additions and a volatile maximum. Whenever the CPU version succeeds and the sizes are within the limits of CUDA, every interleaving of the GPU threads is free of undefined behaviour, data races and deadlock, terminates, and computes the same numbers in exact arithmetic (softmax: bit by bit). The pair of maxsumexp may differ from that of the CPU but stands for the same sum of exponents, so that logsumexp and softmax computed from it are the same.", "quantifier": "all sizes within launch limits, all contents, all scalars, all interleavings of all threads between barriers, all orders of atomic additions and of the unsynchronised maximum", "why_tests_cant": "a test observes one interleaving; a missing barrier or a wrong leader shows up only under particular timings and block shapes", "anchors": ["src/kernel/sum_slice/cuda.cu:cuda", "src/kernel/sumprod_slice/cuda.cu:cuda", "src/kernel/sum_fiber/cuda.cu:cuda", "src/kernel/sumprod_fiber/cuda.cu:cuda", "src/kernel/norm_slice/cuda.cu:cuda", "src/kernel/softmax/cuda.cu:cuda", "src/kernel/softmax_inplace/cuda.cu:cuda", "src/kernel/maxsumexp/cuda.cu:cuda"]}
{"id": "C56", "title": "The state of an optimizer can be saved to a file and restored", "statement": "save_state of Adam (without amsgrad), FusedAdamW (stored as fp32, fp16 or bf16) and FusedAdam (fp16, bf16) changes no tensor. load_state, called on any optimizer with moments of the same shapes, possibly in another run of the program and with other tiles, restores all first and second moments (exactly, or rounded to the type of the file), all hyperparameters and the iteration number, and changes nothing else. A training that is resumed from the file continues with exactly the states and the update rule of the interrupted one.", "quantifier": "all lists of parameters of all shapes with at least one dimension, all tilings on both sides, all contents, all iteration numbers, all hyperparameters, all stores", "why_tests_cant": "a test restores into the same shapes and tiles for a few parameters; a mixed-up index or moment shows only for particular lists of parameters", "anchors": ["wrappers/python/nntile/optimizer/adam.py:Adam.save_state", "wrappers/python/nntile/optimizer/adam.py:Adam.load_state", "wrappers/python/nntile/optimizer/adam.py:FusedAdam.save_state", "wrappers/python/nntile/optimizer/adamw.py:FusedAdamW.save_state", "wrappers/python/nntile/optimizer/adamw.py:FusedAdamW.load_state"]}
{"id": "C57", "title": "Every optimizer state can be saved and restored", "statement": "For every optimizer class, every set of parameters and every dtype argument, load_state after save_state restores the state. This is false: Adam with amsgrad and several parameters stores the largest second moments of the last parameter for all of them; a file of FusedAdam with the default dtype cannot be loaded; with another dtype string nothing is stored and no error is raised; a state with a 0-dimensional parameter cannot be saved.", "quantifier": "all optimizers, parameters, dtype arguments, contents", "why_tests_cant": "tests of save_state use one class and one dtype", "anchors": ["wrappers/python/nntile/optimizer/adam.py:Adam.save_state", "wrappers/python/nntile/optimizer/adam.py:FusedAdam.save_state", "wrappers/python/nntile/optimizer/adam.py:FusedAdam.load_state", "wrappers/python/nntile/optimizer/adamw.py:FusedAdamW.save_state"]}
{"id": "C58", "title": "Operations on tiles do the same as tensor operations on one-tile tensors", "statement": "For every operation that exists at both levels (element-wise, slice, fiber, reductions, softmax, cross entropy, adam and adamw steps, randn, gemm): calling the tile function on tiles and calling the tensor function on tensors that consist of exactly these tiles gives the same outcome: both throw, or both have undefined behaviour, or both succeed and executing the submitted tasks gives the same contents of all tiles.", "quantifier": "all tiles of all shapes (also unsuitable ones), all axes, scalars, transpositions, batch dimensions, seeds, all contents, every arithmetic", "why_tests_cant": "tests compare one tile function with one reference on a few shapes; the equivalence of 45 pairs of hand-written argument checks and size computations must hold for every shape and axis", "anchors": ["src/tile/add.cc:add_async", "src/tile/gemm.cc:gemm_async", "src/tile/softmax.cc:softmax_async", "src/tile/add_fiber.cc:add_fiber_async", "src/tile/randn.cc:randn_async", "src/tile/adam_step.cc:adam_step_async", "include/nntile/tile/tile.hh:Tile"]}
{"id": "C59", "title": "Every tile operation does the same as its tensor operation", "statement": "As C58, for the remaining operations. This is false: sqrt, gelutanh and mask_scalar of tiles check nothing and read or write out of bounds where the tensor function throws; sumnorm of tiles adds to the old contents of the output, which the tensor function replaces; gemm of tiles rejects ndim=0 (outer product), the tensor function accepts it; nrm2 takes temporaries of different shapes at the two levels.", "quantifier": "all tiles, arguments and contents", "why_tests_cant": "tests of the tile functions use suitable shapes and cleared outputs", "anchors": ["src/tile/sqrt.cc:sqrt_async", "src/tile/gelutanh.cc:gelutanh_async", "src/tile/mask_scalar.cc:mask_scalar_async", "src/tile/sumnorm.cc:sumnorm_async", "src/tile/nrm2.cc:nrm2_async", "src/tile/gemm.cc:gemm_async"]}
{"id": "C60", "title": "GPT2 parameters survive the exchange with PyTorch", "statement": "GPT2Model.from_torch copies every element of every PyTorch parameter (token and position embeddings, normalizations, joint attention projection, output projections, MLP, lm_head) into the place of the NNTile parameter which stands for it, and changes nothing else; to_torch copies every element back into arrays of the PyTorch shapes; from_torch followed by to_torch gives back every element of the PyTorch model, and to_torch followed by from_torch (into the same or into another model) gives back every element of the NNTile model. If the PyTorch model ties the weight of lm_head to wte, from_torch raises no exception but never writes the parameter of the last layer.", "quantifier": "all sizes, numbers of heads and blocks, tilings, and contents of the parameters; any element type (elements are copied, not computed)", "why_tests_cant": "tests compare the norm of the difference for one small configuration; the index arithmetic of slices, transpositions and reshapes must be right for every size, and the order of the loop for every number of blocks", "anchors": ["wrappers/python/nntile/model/gpt2.py:from_torch", "wrappers/python/nntile/model/gpt2.py:to_torch"]}
{"id": "C61", "title": "A GPT2 loaded from PyTorch computes what the PyTorch model computes", "statement": "After from_torch, forward_async of the NNTile model on given tokens computes the logits which the PyTorch GPT2LMHeadModel with these parameters computes (embeddings, pre-normalized blocks of causal attention with joint projection and of MLP, final normalization, lm_head); and after to_torch the PyTorch model computes the logits which the NNTile model computes with its current (e.g. trained) parameters. The mask adds a finite number in NNTile; as it tends to minus infinity, the logits tend to those of exact causal attention.", "quantifier": "all sizes, tilings, numbers of heads and blocks, activation functions, parameters, tokens, with or without FlashAttention on even tilings; exact real arithmetic", "why_tests_cant": "tests compare the two with a tolerance on one configuration", "anchors": ["wrappers/python/nntile/model/gpt2.py:from_torch", "wrappers/python/nntile/model/gpt2.py:to_torch", "wrappers/python/nntile/model/gpt2.py:GPT2Model", "wrappers/python/nntile/layer/attention.py:Attention"]}
{"id": "C62", "title": "MlpMixer computes the MLP-Mixer function and its gradient", "statement": "MlpMixer built for a batch of images computes in forward_async, in the last activation, the MLP-Mixer function of input and parameters (projection of patches; n_layers mixer layers, each with a token MLP and a channel MLP on normalized input and residual connections done in place; mean over patches; classification). clear_gradients followed by forward_async, a gradient dy stored for the output, and backward_async leave in the gradient of every parameter (and of the input if required) the gradient of <dy, output>, although residual connections share buffers and GAP overwrites instead of adding. clear_gradients makes all gradients zero whatever they contained. If the patch dimension is split into tiles, forward_async raises an exception rather than computing something else.", "quantifier": "all numbers of patches, batch sizes, patch sizes, embedding sizes, numbers of layers and classes, tilings of batch and pixels, contents of all tensors; exact real arithmetic", "why_tests_cant": "tests compare one configuration with PyTorch with a tolerance; the order of the in-place residual updates matters for every depth and state of the gradients", "anchors": ["wrappers/python/nntile/model/mlp_mixer.py:MlpMixer", "wrappers/python/nntile/layer/mixer.py:Mixer", "wrappers/python/nntile/layer/mixer.py:MixerMlp", "wrappers/python/nntile/layer/mixer.py:GAP", "wrappers/python/nntile/model/base_model.py:BaseModel"]}
{"id": "C63", "title": "An MlpMixer loaded from PyTorch computes what the PyTorch model computes", "statement": "After MlpMixer.from_torch, forward_async on any images computes the (transposed) output of the PyTorch MlpMixer with these parameters: the projection of the patches, the mixer layers (normalization over the features, the MLP over the patches, the MLP over the features, each added to its input), the mean over the patches and the classifier. Holds if the number of pixels of a patch differs from hidden_dim; if they are equal, from_torch (which decides by the first size whether to transpose) loads the matrix of the projection untransposed, and forward_async computes another function. A PyTorch model without mixer layers is rejected.", "quantifier": "all sizes, batch sizes, numbers of mixer layers and classes, parameters, images; exact real arithmetic", "why_tests_cant": "tests compare the two with a tolerance on one configuration with different sizes", "anchors": ["wrappers/python/nntile/model/mlp_mixer.py:from_torch", "wrappers/python/nntile/torch_models/mlp_mixer.py:MlpMixer", "wrappers/python/nntile/layer/mixer.py:Mixer"]}
{"id": "C64", "title": "MlpMixer parameters survive the exchange with PyTorch", "statement": "MlpMixer.from_torch copies every element of every PyTorch parameter into the place of the NNTile parameter which stands for it and changes nothing else; to_torch copies every element back; from_torch followed by to_torch (into any PyTorch model of the same sizes) gives back every element, and to_torch followed by from_torch gives back every element of the NNTile model, for all sizes, also those where the projection is loaded untransposed.", "quantifier": "all sizes, tilings, numbers of mixer layers, contents of the parameters; any element type", "why_tests_cant": "tests compare a norm on one configuration; which matrices are transposed is decided from sizes at run time", "anchors": ["wrappers/python/nntile/model/mlp_mixer.py:from_torch", "wrappers/python/nntile/model/mlp_mixer.py:to_torch"]}
{"id": "C65", "title": "Registered data is unregistered exactly once, when its last owner ends", "statement": "For every sequence of constructions (also failing ones), copies, assignments, unregister() calls, destructions, acquisitions (also failing ones) and releases of Handle, VariableHandle, Tile handles and HandleLocalData: data to which some object refers is registered and not unregistered; data to which none refers any more was unregistered exactly once, by the StarPU call its mode demands (R: no coherency, RW/W: with coherency, SCRATCH: submitted), after all other calls about it, and nothing is ever done to it afterwards. unregister() twice, and Tensor::unregister() twice, do nothing the second time. Only data registered with an invalid mode leaks (the constructor raises after registration).", "quantifier": "all histories of operations on any number of handles, tiles and local objects, all modes, any failing acquisitions", "why_tests_cant": "a test runs one history; the counter must be right after every interleaving of copies, assignments and resets", "anchors": ["include/nntile/starpu/config.hh:Handle", "include/nntile/starpu/config.hh:VariableHandle", "include/nntile/starpu/config.hh:HandleLocalData", "include/nntile/tensor/tensor.hh:unregister", "include/nntile/tile/tile.hh:Tile"]}
{"id": "C66", "title": "Acquired data is released exactly once, and local pointers are valid while readable", "statement": "A program which acquires and releases local data never releases what it does not hold, never waits forever, releases everything it acquired, and a local pointer it can read always points to registered, acquired data. True if local objects are copied or assigned only while released, acquired only while released, released only while acquired, and no excluding acquisition is outstanding (the way from_array, to_array and get_val use them). False in general: HandleLocalData has an implicit copy constructor, so that a copy of an acquired object releases a second time (and reads through a pointer after the release); release() twice is undefined; acquire() twice leaves an acquisition outstanding with which unregistration waits forever; acquire() after unregister() gives StarPU a null handle.", "quantifier": "all histories of operations in which each is disciplined in the state it begins in", "why_tests_cant": "the histories are unbounded; tests use each object once", "anchors": ["include/nntile/starpu/config.hh:HandleLocalData", "include/nntile/tile/tile.hh:TileLocalData"]}
{"id": "C67", "title": "64-bit index arithmetic does not overflow", "statement": "For every tile and tensor with less than 2^63 elements the constructors of TileTraits and TensorTraits, index_to_linear, linear_to_index and get_tile_shape compute in int64_t exactly what they would in unbounded integers, for every argument (also wrong ones, also base tiles larger than the tensor); for a shape with 2^63 or more elements the constructor overflows (undefined behaviour instead of an exception).", "quantifier": "all shapes, base tiles, indices and offsets", "why_tests_cant": "tests use small shapes", "anchors": ["include/nntile/tile/traits.hh:TileTraits", "include/nntile/tensor/traits.hh:TensorTraits", "include/nntile/base_types.hh:Index"]}
{"id": "C68", "title": "The memory registered for a tile has room for its elements", "statement": "A tile allocated by StarPU gets exactly nelems*sizeof(T) bytes, and a tile on a user buffer is accepted exactly if the buffer is large enough and the bytes fit into size_t (otherwise an exception). The first is false if nelems*sizeof(T) exceeds the range of size_t, which is not checked there: a tile with 2^62+1 fp32 elements is registered with 4 bytes.", "quantifier": "all shapes, element sizes, buffer sizes", "why_tests_cant": "tests cannot allocate such tiles", "anchors": ["include/nntile/tile/tile.hh:Tile", "include/nntile/tile/tile.hh:_get_size", "include/nntile/tensor/tensor.hh:Tensor"]}
{"id": "C69", "title": "DeepReLU.from_torch gives a model which computes the PyTorch MLP", "statement": "For every PyTorch MLP with at least two linear layers, hidden layers of one size and a bias in all layers or in none, every batch size and number of classes: DeepReLU.from_torch succeeds, it makes an input tensor of shape inputs x batch and one linear layer for each one of the MLP, every parameter of the model holds the corresponding parameter of the MLP, and after any input was stored, forward_async leaves in the last activation the (transposed) output of the PyTorch MLP for each sample of the batch. Hidden layers of different sizes and a wrong number of classes raise an exception; so does an MLP of a single linear layer without bias; for another nonlinearity than relu nothing (None) is returned.", "quantifier": "all layer counts, sizes, parameter values, inputs and batch sizes", "why_tests_cant": "tests load one model of fixed sizes", "anchors": ["wrappers/python/nntile/model/deep_relu.py:from_torch", "wrappers/python/nntile/model/deep_relu.py:DeepReLU", "wrappers/python/nntile/model/base_model.py:forward_async"]}
{"id": "C70", "title": "GPT2MLP.from_torch gives a model which computes the PyTorch MLP", "statement": "For every input tensor (any number of dimensions and tiling), inner and embedding size, tile size and supported activation function, and every PyTorch MLP with weights of shape inputs x outputs (Conv1D): the GPT2MLP constructor and the loading in from_torch succeed, only the parameters are changed, and after any input was stored, forward_async leaves in the last activation the output of the PyTorch MLP, applied along the first dimension. Fewer than four parameters raise an exception; further ones are ignored.", "quantifier": "all shapes, tilings, sizes, parameters, inputs", "why_tests_cant": "tests load one model of fixed sizes", "anchors": ["wrappers/python/nntile/model/gpt2.py:GPT2MLP", "wrappers/python/nntile/model/gpt2.py:from_torch"]}
{"id": "C71", "title": "Images are cut into patches without losing, repeating or mixing pixels", "statement": "For every batch of images and every patch size p which divides the numbers of rows and columns, image_patching (rows x batch x columns) and image_patching_rgb (batch x rows x columns x colors) give one vector for each patch and image; the pixel in row r and column c is in patch (r/p)*(w/p)+c/p at position (r%p)*p+c%p (in the block of its color), each element of the result is that of exactly one pixel, and n_patches and n_channels are its sizes. Other patch sizes and numbers of dimensions raise an exception.", "quantifier": "all image sizes, batch sizes, patch sizes, pixel values", "why_tests_cant": "tests use one image size; the index arithmetic must be right for each pixel", "anchors": ["wrappers/python/nntile/torch_models/mlp_mixer.py:image_patching", "wrappers/python/nntile/torch_models/mlp_mixer.py:image_patching_rgb"]}
{"id": "C72", "title": "Python functions call the C++ function for the element type of their tensors", "statement": "For each of the 62 functions of nntile.tensor and all arguments: if they fit the function for one of the element types for which it is available, the C++ function instantiated for that type is called with the arguments at their places (fused_adam_step and fused_adamw_step reorder them, the choice of fast single precision is dropped for double precision, omitted redux is 0); otherwise - tensors of different element types, an element type which is not available, other types or numbers of arguments - TypeError is raised. False for scatter_async in double precision, which always raises TypeError although the C++ function is bound.", "quantifier": "all functions, all argument lists", "why_tests_cant": "tests call each function with one type; mixed types are not tested", "anchors": ["wrappers/python/nntile/tensor.py:gemm_async", "wrappers/python/nntile/tensor.py:scatter_async", "wrappers/python/nntile/tensor.py:fused_adam_step", "wrappers/python/nntile/nntile_core.cc:def_mod_tensor"]}
{"id": "C73", "title": "Conversion between single and half precision", "statement": "fp32_to_fp16 and fp16_to_fp32 convert every element of a tensor of any shape and tiling once, whatever was in the destination; other tensors are unchanged; a half precision tensor converted to single and back is unchanged if its values survive the conversion; tensors of different shape or tiling are rejected; a build without CUDA throws; a single tile and the CUDA kernel for up to 2^31 elements give the same result.", "quantifier": "all shapes, tilings, contents, schedules of GPU threads", "why_tests_cant": "tests convert a few small tensors", "anchors": ["src/tensor/fp32_to_fp16.cc:fp32_to_fp16_async", "src/tensor/fp16_to_fp32.cc:fp16_to_fp32_async", "src/tile/fp32_to_fp16.cc", "src/starpu/fp32_to_fp16.cc", "src/kernel/fp32_to_fp16/cuda.cu", "src/kernel/fp16_to_fp32/cuda.cu"]}
{"id": "C74", "title": "Layers of conversion are identities up to rounding and add to gradients", "statement": "FP32_to_FP16.generate_simple creates an output of half precision of the same shape and tiling, forward converts the input, backward adds the converted gradient of the output to the gradient of the input if it is required; FP16_to_FP32 likewise. False: backward overwrites the gradient of the input and raises TypeError if there is none; a layer made by FP16_to_FP32.generate_simple always raises TypeError.", "quantifier": "all shapes, tilings, contents", "why_tests_cant": "the layers have no tests", "anchors": ["wrappers/python/nntile/layer/fp32_to_fp16.py:FP32_to_FP16", "wrappers/python/nntile/layer/fp16_to_fp32.py:FP16_to_FP32"]}
{"id": "C75", "title": "gemm_ex multiplies factors rounded once", "statement": "gemm_ex computes C = alpha*op(r(A))*op(r(B)) + beta*C in exact arithmetic, where r is the rounding of one element to TF32, independently of tiling, for tiles whose sizes fit int; rejects what gemm rejects; equals gemm if no element is changed by r; throws without CUDA; the forward method of Linear with fp32_fast_tf32 computes the linear map of rounded inputs and its backward method the gradients of it from rounded factors; on single tiles the result is the same. The batch count of a tile is not checked for fitting int.", "quantifier": "all shapes, tilings, transpositions, scalars, contents", "why_tests_cant": "tests use small integers, which are exact in TF32", "anchors": ["src/tensor/gemm_ex.cc:gemm_ex_async", "src/tile/gemm_ex.cc:gemm_ex_async", "src/starpu/gemm_ex.cc:submit", "wrappers/python/nntile/layer/linear.py:Linear.forward_async", "wrappers/python/nntile/layer/linear.py:Linear.backward_async"]}
{"id": "C76", "title": "Scatter and gather of half precision tensors", "statement": "scatter and gather of tensors of half precision copy every element exactly, for every tiling, and reject tensors of different shapes and a source/destination which is not a single tile. False for every tensor of more than one tile: the call is accepted, and the task reads or writes beyond the end of a tile, because it accesses tiles of 2-byte elements in units of 4 bytes.", "quantifier": "all shapes, tilings, contents", "why_tests_cant": "there is no test for half precision; overruns of heap buffers may go unnoticed", "anchors": ["src/starpu/subcopy.cc:init", "src/tensor/gather.cc:gather_async", "src/tensor/scatter.cc:scatter_async"]}
{"id": "C77", "title": "Random numbers are finite", "statement": "randn fills a tensor with finite numbers given by the Box-Muller formula, for every seed, shape, tiling, box of the underlying array, mean and standard deviation; the generator has the full period 2^64. False for every even seed at exactly one of the 2^63 positions of the stream: there the uniform number is exactly 0 and the generated number is +inf. For the seed 0 it is the first element of the tensor. True for every odd seed.", "quantifier": "all seeds, positions, shapes, tilings, means, standard deviations", "why_tests_cant": "one of 2^63 positions; which seeds are affected is a statement about the whole period", "anchors": ["external/random.h:CORE_dlaran", "src/kernel/randn/cpu.cc:chameleon_randn", "src/tensor/randn.cc:randn_async"]}
{"id": "C78", "title": "Random initialization of parameters", "statement": "init_randn_async of a layer and of the models DeepReLU, GPT2MLP and DeepLinear gives each parameter finite numbers that depend on its shape only (not on the tiling, previous contents or other parameters), with the formula for seed 100, mean 0 and standard deviation 1/sqrt(number of elements); parameters of the same shape get the same numbers; no other tensor is changed.", "quantifier": "all layers and models, all parameter shapes and tilings, all previous contents", "why_tests_cant": "holds for every tiling and network", "anchors": ["wrappers/python/nntile/layer/base_layer.py:init_randn_async", "wrappers/python/nntile/model/deep_relu.py:init_randn_async", "wrappers/python/nntile/model/gpt2.py:init_randn_async", "wrappers/python/nntile/model/deep_linear.py:init_randn_async"]}
{"id": "C79", "title": "Unregistering a model, a loss or an optimizer releases everything it owns", "statement": "after unregister() of a model made by one of the constructors, every tensor of its inputs and every tensor which the constructor made (parameters, activations, gradients, temporaries, the mask) was unregistered, and nothing else; the same for the tensors made by losses and optimizers. In StarPU, every data of these tiles which nothing else refers to is unregistered exactly once, even if unregister is called several times for a tensor.", "quantifier": "all arguments of the constructors, any number of layers, any history of a program", "why_tests_cant": "a leak shows up only as memory which is missing later; tests unregister tensors one by one", "anchors": ["wrappers/python/nntile/model/base_model.py:unregister", "wrappers/python/nntile/layer/base_layer.py:unregister", "wrappers/python/nntile/model/gpt2.py:unregister", "wrappers/python/nntile/model/mlp_mixer.py:unregister", "wrappers/python/nntile/optimizer/adam.py:unregister", "wrappers/python/nntile/loss/frob.py:unregister"]}
{"id": "C80", "title": "Programs executed in reduction mode give the results of the sequential execution", "statement": "Layers constructed with redux=True submit products and sums with access mode STARPU_REDUX, and the value of a cross-entropy loss is accumulated by commuting tasks: the workers may accumulate into any number of replicas, started and merged at any time between other tasks. Every execution of a program of forward passes, backward passes, evaluations of cross-entropy losses, clearing of gradients and other tasks (input; the steps of SGD and Adam on the parameters are covered explicitly) with the reductions which the constructors of the layers and of the losses register succeeds in every step, ends after at most two steps per task, and when it ends all tiles have the contents which the sequential execution of the submitted tasks gives; no tile is accumulated without registered codelets, and registrations for the same tensor agree.", "quantifier": "all lists of losses, all models made of act, add, add_slice, embedding, linear, layer_norm, attention and flash_attention layers, all shapes and tilings, all programs of any length, all executions: any number of replicas, any choice of the replica for each task, any moment and order of merging that respects the order of accesses to a tile", "why_tests_cant": "the runtime decides about replicas and the order of merging at each execution; tests see one of them, and with one worker none at all", "anchors": ["include/nntile/tensor/tensor.hh:set_reduction_add", "src/starpu/accumulate.cc", "src/starpu/accumulate_hypot.cc", "src/starpu/accumulate_maxsumexp.cc", "wrappers/python/nntile/layer/linear.py", "wrappers/python/nntile/layer/attention.py", "wrappers/python/nntile/layer/layer_norm.py", "wrappers/python/nntile/layer/add_slice.py", "src/starpu/sum_slice.cc:submit", "src/starpu/total_sum_accum.cc:submit", "wrappers/python/nntile/loss/crossentropy.py"]}
{"id": "C81", "title": "A tensor whose gradient is not required needs no gradient and is not trained", "statement": "A tensor with grad_required=False may have None instead of a gradient. Layers, models, losses and optimizers work as if it had one, submit the same tasks whatever tensor it is, never change it, and do not update the value of a frozen parameter. (True for the forward and backward passes of activations, linear layers, attention and FlashAttention, for clearing the gradients of a model and for inputs of activations and linear layers without a gradient. Refuted for Add, AddSlice, LayerNorm and Embedding, whose backward passes ignore grad_required, for all optimizers, which update frozen parameters, for constructors, which raise AttributeError for parameters without gradients, and for the cross-entropy loss, whose calc_async raises AttributeError after the tasks are submitted.)", "quantifier": "all layers and models, all shapes, tilings and options, all combinations of flags, all tensors in place of the gradients, all scalar types and steps of the optimizers", "why_tests_cant": "whether a gradient is touched depends on flags of each of many tensors; tests train with all gradients required", "anchors": ["wrappers/python/nntile/tensor.py:TensorMoments", "wrappers/python/nntile/layer/act.py", "wrappers/python/nntile/layer/add.py", "wrappers/python/nntile/layer/linear.py", "wrappers/python/nntile/layer/attention.py", "wrappers/python/nntile/layer/flash_attention.py", "wrappers/python/nntile/model/base_model.py:clear_gradients", "wrappers/python/nntile/loss/crossentropy.py:calc_async", "wrappers/python/nntile/optimizer/sgd.py:step", "wrappers/python/nntile/optimizer/adam.py:step"]}
{"id": "C82", "title": "to_array and from_array work for numpy arrays of any layout and type", "statement": "from_array accepts a numpy array of any memory layout (C order, Fortran order, transposed, sliced, reversed) and any element type: the tensor then holds its elements, converted to the type of the tensor. to_array fills the array it is given with the elements of the tensor, touches no other memory, or raises an exception. (Refuted for to_array: the arrays in C order which numpy creates by default, with two or more dimensions of more than one element, and arrays of another type from which the conversion is safe, are silently left unchanged; arrays in Fortran order of the same type are filled.)", "quantifier": "all shapes, tilings, offsets, strides, element types, conversions and contents", "why_tests_cant": "tests use the layouts and types which work; a silently ignored output is not noticed by a call that succeeds", "anchors": ["wrappers/python/nntile/nntile_core.cc:tensor_from_array", "wrappers/python/nntile/nntile_core.cc:tensor_to_array", "wrappers/python/nntile/nntile_core.cc:tile_from_array", "wrappers/python/nntile/nntile_core.cc:tile_to_array"]}
{"id": "C83", "title": "Waiting, blocking operations and reading give the results of the program executed in order", "statement": "A program submits tasks, acquires, reads, writes and releases data, and waits for all tasks, while workers execute tasks at any time. When the wait (wait_for_all, or the end of a blocking operation) returns, no task is left and all data is what it is if every task is executed at its submission; what the program reads in acquired data is what the operations before it give, although other tasks may not be finished; a wait ends if tasks are not paused and the program holds no data for which a submitted task waits, and otherwise it does not end.", "quantifier": "all programs, all tasks, all interleavings of the main thread and the workers, all stores", "why_tests_cant": "the number of interleavings is unbounded, and a test sees the ones which its machine produces", "anchors": ["include/nntile/starpu/config.hh:HandleLocalData", "wrappers/python/nntile/nntile_core.cc:wait_for_all", "src/tensor/add.cc:add"]}
{"id": "C84", "title": "The blocking methods forward and backward of a layer", "statement": "forward() and backward() of a layer do what forward_async() and backward_async() do, and return normally when all tasks are finished. (Refuted for every layer: both raise NameError after they have submitted tasks, without waiting, because the module does not import starpu; and backward() submits the tasks of the forward pass, so that no gradient is changed. After the exception is caught and the program waits itself, the results of the forward pass are there.)", "quantifier": "all layers, all asynchronous methods, all interleavings of the main thread and the workers", "why_tests_cant": "no test calls the methods; the second defect is hidden by the first one", "anchors": ["wrappers/python/nntile/layer/base_layer.py:BaseLayer.forward", "wrappers/python/nntile/layer/base_layer.py:BaseLayer.backward"]}
{"id": "C85", "title": "Training gives the same losses and parameters while workers execute tasks at any time", "statement": "train_async submits the tasks of a batch, reads the value of the loss and goes on, while workers execute tasks at any time. Whatever the interleaving: no task fails, the losses which it reads and prints are those of the loop which executes every task at its submission, that is (with the pipeline of C44) the losses of the batches in turn, each before the step of the optimizer for it; when no task is left, parameters and states of the optimizer are those of the update rule with the gradients; and the loop does not come to a stop.", "quantifier": "all pipelines, models, losses by cross entropy, optimizers, data, all interleavings of the main thread and the workers", "why_tests_cant": "a wrong order of two of many tasks appears in few of the interleavings, and not on a machine with one worker", "anchors": ["wrappers/python/nntile/pipeline.py:Pipeline.train_async", "wrappers/python/nntile/loss/crossentropy.py:CrossEntropy.get_val", "wrappers/python/nntile/nntile_core.cc:tensor_to_array", "include/nntile/starpu/config.hh:HandleLocalData"]}
{"id": "C86", "title": "StarPU runs exactly while an object of class Config is alive", "statement": "A program which constructs objects of class Config and destroys each (as local variables, with overlapping lifetimes, or after failed constructors) starts and ends StarPU and cuBLAS in properly nested pairs: at each moment StarPU is started as often as objects are alive, cuBLAS is ended before the StarPU it runs on, nothing is ended twice, and a constructor which throws has started nothing. The class also offers the method shutdown and can be copied.", "quantifier": "all sequences of constructions, destructions, failures of initialization, with and without CUDA, all values of the parameter cublas", "why_tests_cant": "each test constructs one object and destroys it at the end; the method shutdown is called by none", "anchors": ["include/nntile/starpu/config.hh:Config", "wrappers/python/nntile/nntile_core.cc:def_mod_starpu"]}
{"id": "C87", "title": "from_array and to_array give right arrays while workers execute tasks at any time", "statement": "A Python program mixes asynchronous operations, waits, from_array, to_array and unregister on tensors (with tiles of any size). Whatever the workers do meanwhile, no task fails, each array which to_array fills is what it is if every operation is complete before the next one starts, so are all data when no task is left, and the program does not come to a stop. In particular: what a program puts into a tensor with from_array, computes from it by asynchronous operations and reads with to_array is the result of the computation, without any explicit wait.", "quantifier": "all programs, tensors, tilings, arrays, all interleavings of the main thread and the workers", "why_tests_cant": "a missing wait shows only in some of the interleavings", "anchors": ["wrappers/python/nntile/nntile_core.cc:tensor_from_array,tensor_to_array", "src/tensor/scatter.cc:scatter", "src/tensor/gather.cc:gather", "include/nntile/starpu/config.hh:HandleLocalData,VariableHandle"]}
{"id": "C88", "title": "The model DeepReLU_mp can be built", "statement": "The constructor of DeepReLU_mp rejects a wrong side, fewer than two layers and a number of dimensions that is not positive, each with its message, and with right arguments gives a model; from_torch gives a model for a PyTorch multilayer perceptron with the nonlinearity relu.", "quantifier": "all arguments of the constructor, all lists of parameter shapes and all nonlinearities in from_torch", "why_tests_cant": "Python looks names up when a line runs, so a class nobody instantiates passes every test; that no arguments give an object is a statement about all arguments", "anchors": ["wrappers/python/nntile/model/deep_relu_mp.py:DeepReLU_mp.__init__,from_torch"]}
{"id": "C89", "title": "gpt2_custom_generate.py continues a text by the most likely tokens", "statement": "The program puts the text of the file and then, token by token, its most likely continuation according to the model into the buffer: each token is the most likely one after the tokens before it, whatever filler is behind them, and more tokens than positions give an exception.", "quantifier": "all causal models (in particular all GPT2), texts, numbers of positions and tokens", "why_tests_cant": "a test compares one text for one model; that filler behind the text has no influence, and off-by-one errors at the ends, are statements about all texts", "anchors": ["wrappers/python/examples/gpt2_custom_generate.py"]}
{"id": "C90", "title": "gpt2_training.py trains on each token and its successor once", "statement": "The batches of gpt2_training.py and gpt2_custom_training.py hold inputs and labels such that each label is the token which follows its input in the training set; no token is an input twice; each batch has batch_size sequences; fewer tokens than one batch needs are left out at the end; batch sizes which are zero or not divisible are rejected.", "quantifier": "all lists of tokens, all sizes of sequences, batches and minibatches", "why_tests_cant": "wrong strides when the list is cut into an array of four dimensions show for some sizes only", "anchors": ["wrappers/python/examples/gpt2_training.py", "wrappers/python/examples/gpt2_custom_training.py"]}
{"id": "C91", "title": "Loaders of images put each image into one batch", "statement": "The loaders put the images of the data set into batches one after the other: each batch has batch_size images in minibatches of minibatch_size, no image is used twice, none is outside the data set, and fewer than batch_size images are left out, all at the end; sizes zero are rejected.", "quantifier": "all sizes of data sets, batches and minibatches", "why_tests_cant": "images which are left out for some sizes do not make a test fail", "anchors": ["wrappers/python/examples/mlp_mixer_data_preparation.py:cifar_data_loader_to_nntile,mnist_data_loader_to_nntile,cifar_data_loader_to_tensor,mnist_data_loader_to_tensor"]}
