{"claims": [
{"property": "C01", "status": "proved", "theorems": ["NNTile.C01_linear_roundtrip", "NNTile.C01_index_roundtrip", "NNTile.C01_index_rejected", "NNTile.C01_linear_rejected", "NNTile.C01_contains_index", "NNTile.C01_injective"], "note": ""},
{"property": "C02", "status": "proved", "theorems": ["NNTile.C02_accepts_iff", "NNTile.C02_metadata"], "note": ""},
{"property": "C03", "status": "proved", "theorems": ["NNTile.C03_partition", "NNTile.C03_tile_inside", "NNTile.C03_tile_shape", "NNTile.C03_sizes_sum"], "note": ""},
{"property": "C04", "status": "proved", "theorems": ["NNTile.C04_traits_accept_iff", "NNTile.C04_tensor"], "note": ""},
{"property": "C05", "status": "partial", "theorems": ["NNTile.C05_block_cyclic_partial", "NNTile.C05_rank_formula_partial", "NNTile.C05_rejects", "NNTile.C05_scalar_grid_ub", "NNTile.C05_scalar_always_ub", "NNTile.C05_zero_node_grid_ub", "NNTile.C05_negative_node_grid_rank"], "note": "code does not reject scalar grids and non-positive node grids (refuted with witnesses)"},
{"property": "C06", "status": "proved", "theorems": ["NNTile.C06_jump_exact", "NNTile.C06_jump_eq_generate", "NNTile.C06_jump_add", "NNTile.C06_jump_zero", "NNTile.C06_jump_injective"], "note": ""},
{"property": "C07", "status": "proved", "theorems": ["NNTile.C07_kernel", "NNTile.C07_accepts", "NNTile.C07_randn", "NNTile.C07_slice", "NNTile.C07_tiling_independent"], "note": ""},
{"property": "C08", "status": "proved", "theorems": ["NNTile.C08_subcopy_strided", "NNTile.C08_subcopy_tiles", "NNTile.C08_scalar_ub"], "note": ""},
{"property": "C09", "status": "proved", "theorems": ["NNTile.C09_scatter", "NNTile.C09_gather", "NNTile.C09_gather_scatter", "NNTile.C09_rejects", "NNTile.C09_copy", "NNTile.C09_copy_rejects"], "note": "scatter, gather, copy"},
{"property": "C10", "status": "proved", "theorems": ["NNTile.C10_copy_intersection", "NNTile.C10_rejects", "NNTile.C10_empty", "NNTile.C10_tile", "NNTile.C10_tile_rejects"], "note": ""},
{"property": "C11", "status": "partial", "theorems": ["NNTile.C11_fill", "NNTile.C11_clear", "NNTile.C11_scal_inplace", "NNTile.C11_add_scalar_bits", "NNTile.C11_pow", "NNTile.C11_sqrt_inplace", "NNTile.C11_relu", "NNTile.C11_drelu", "NNTile.C11_gelu", "NNTile.C11_dgelu", "NNTile.C11_gelutanh_inplace", "NNTile.C11_dgelutanh", "NNTile.C11_hypot_scalar_inverse", "NNTile.C11_prod", "NNTile.C11_maximum", "NNTile.C11_sqrt", "NNTile.C11_relu_forward", "NNTile.C11_gelutanh", "NNTile.C11_relu_backward", "NNTile.C11_gelu_backward", "NNTile.C11_gelutanh_backward", "NNTile.C11_axpy", "NNTile.C11_addcdiv_partial", "NNTile.C11_scal_bits", "NNTile.C11_add_bits_partial", "NNTile.C11_hypot_bits", "NNTile.C11_scal", "NNTile.C11_add_scalar", "NNTile.C11_add_partial", "NNTile.C11_hypot_partial", "NNTile.C11_rejects2", "NNTile.C11_rejects_axpy", "NNTile.C11_rejects3", "NNTile.C11_add_refuted", "NNTile.C11_hypot_refuted", "NNTile.C11_addcdiv_tiling_unchecked", "NNTile.C11_axpy_scalar", "NNTile.C11_axpy_scalar_rejects", "NNTile.C11_addcdiv_rejects"], "note": "All element-wise operations for every shape/tiling; refuted and excluded: add with alpha=0, beta not in {0,1} (swapped scal_inplace arguments), hypot early return on negative dst, addcdiv tiling not checked."},
{"property": "C12", "status": "proved", "theorems": ["NNTile.C12_add_slice_bits", "NNTile.C12_add_slice3_bits", "NNTile.C12_prod_slice", "NNTile.C12_add_slice_rejects", "NNTile.C12_add_slice3_rejects", "NNTile.C12_prod_slice_rejects", "NNTile.C12_add_slice", "NNTile.C12_add_slice3"], "note": "add_slice, add_slice3, prod_slice for all shapes, tilings, axes and scalars; accepted exactly for matching shapes/tilings."},
{"property": "C13", "status": "partial", "theorems": ["NNTile.C13_add_fiber_bits_partial", "NNTile.C13_prod_fiber", "NNTile.C13_prod_fiber3", "NNTile.C13_add_fiber_rejects_partial", "NNTile.C13_add_fiber_rejects_refuted", "NNTile.C13_prod_fiber_rejects", "NNTile.C13_prod_fiber3_rejects", "NNTile.C13_add_fiber_partial", "NNTile.C13_add_fiber_refuted"], "note": "prod_fiber and prod_fiber3 fully proved. add_fiber is proved for every case but alpha=0 with beta!=1, where the code returns early and leaves dst unscaled (C13_add_fiber_refuted); argument rejection proved for batch_ndim>=0, refuted for batch_ndim=-1 with a scalar src (undefined behaviour)."},
{"property": "C14", "status": "partial", "theorems": ["NNTile.C14_sum_slice", "NNTile.C14_sumprod_slice_partial", "NNTile.C14_sum_slice_rejects", "NNTile.C14_sumprod_slice_rejects_partial", "NNTile.C14_sumprod_slice_refuted"], "note": "sum_slice proved for all shapes, tilings, axes and scalars over exact arithmetic; sumprod_slice proved under equal tiling of src1 and src2, which the code does not check: refuted by a witness (C14_sumprod_slice_refuted)"},
{"property": "C15", "status": "partial", "theorems": ["NNTile.C15_sum_fiber", "NNTile.C15_sumprod_fiber_partial", "NNTile.C15_sum_fiber_rejects_partial", "NNTile.C15_sum_fiber_batch_refuted", "NNTile.C15_sumprod_fiber_rejects_partial", "NNTile.C15_sumprod_fiber_refuted"], "note": "sum_fiber proved for all shapes, tilings, axes, batch dims and scalars over exact arithmetic; sumprod_fiber proved under equal tiling of src1 and src2, which the code does not check (refuted by witness); batch_ndim=-1 with scalar dst gives UB (refuted by witness)"},
{"property": "C16", "status": "proved", "theorems": ["NNTile.C16_norm_slice", "NNTile.C16_nrm2", "NNTile.C16_norm_slice_nonneg", "NNTile.C16_norm_slice_rejects", "NNTile.C16_nrm2_rejects"], "note": "norm_slice and nrm2 over exact arithmetic, all shapes/tilings/axes/scalars; rejection of bad arguments for any scalar type"},
{"property": "C17", "status": "proved", "theorems": ["NNTile.C17_gemm", "NNTile.C17_gemm_rejects", "NNTile.C17_gemm_matrix"], "note": "gemm/gemm_ex on the host side; BLAS replaced by its specification; checks of CBLAS_INT range not modelled"},
{"property": "C18", "status": "proved", "theorems": ["NNTile.C18_transpose", "NNTile.C18_transpose_rejects", "NNTile.C18_transpose_involutive"], "note": "transpose_async, submit and CPU kernel; bit-exact for arbitrary scalar type; involution over the reals"},
{"property": "C19", "status": "proved", "theorems": ["NNTile.C19_maxsumexp", "NNTile.C19_any_execution", "NNTile.C19_clear_maxsumexp", "NNTile.C19_rejects", "NNTile.C19_meaning", "NNTile.C19_maxsumexp_real", "NNTile.C19_real_meaning"], "note": "exact arithmetic on numbers with IEEE infinities; any execution via replicas in C19_any_execution; C19_maxsumexp_real, C19_real_meaning: the same over the reals"},
{"property": "C20", "status": "proved", "theorems": ["NNTile.C20_softmax_bits", "NNTile.C20_softmax_inplace_bits", "NNTile.C20_logsumexp_bits", "NNTile.C20_softmax", "NNTile.C20_softmax_inplace", "NNTile.C20_logsumexp", "NNTile.C20_chain", "NNTile.C20_distribution", "NNTile.C20_shift_invariant", "NNTile.C20_softmax_rejects", "NNTile.C20_softmax_inplace_rejects", "NNTile.C20_logsumexp_rejects"], "note": "clear; maxsumexp; softmax / softmax_inplace / logsumexp; exact arithmetic with -inf masks; bit-exact kernel-level forms for any scalar type"},
{"property": "C21", "status": "partial", "theorems": ["NNTile.C21_mask_scalar", "NNTile.C21_idempotent", "NNTile.C21_rejects_partial", "NNTile.C21_rejects_refuted"], "note": "full claim about values; rejection proved for batch_ndim >= 0 and refuted for negative batch_ndim"},
{"property": "C22", "status": "partial", "theorems": ["NNTile.C22_embedding", "NNTile.C22_embedding_backward", "NNTile.C22_adjoint", "NNTile.C22_rejects_partial", "NNTile.C22_dim_refuted", "NNTile.C22_vocab_refuted", "NNTile.C22_axis_refuted"], "note": "values of embedding and embedding_backward and adjointness proved in full; rejection of ill-shaped arguments proved except for the refuted cases (dimension axis-1, tiling of the second dimension of vocab, range of axis)"},
{"property": "C23", "status": "proved", "theorems": ["NNTile.C23_subtract_indexed_outputs", "NNTile.C23_total_sum_accum", "NNTile.C23_rejects", "NNTile.C23_gradient"], "note": ""},
{"property": "C24", "status": "partial", "theorems": ["NNTile.C24_adam_first_step", "NNTile.C24_adam_step", "NNTile.C24_adamw_first_step", "NNTile.C24_adamw_step", "NNTile.C24_adam_training", "NNTile.C24_adamw_training", "NNTile.C24_rejects_partial", "NNTile.C24_tiling_refuted"], "note": "single steps bit-exact, training runs of any length over the reals, rejection of wrong shapes; tilings that differ are not rejected by the code (refuted by witness)"},
{"property": "C25", "status": "proved", "theorems": ["NNTile.C25_gelutanh_differentiable", "NNTile.C25_gelu_differentiable", "NNTile.C25_relu_differentiable", "NNTile.C25_gelutanh", "NNTile.C25_gelutanh_inplace", "NNTile.C25_dgelutanh", "NNTile.C25_gelutanh_backward", "NNTile.C25_gelu", "NNTile.C25_dgelu", "NNTile.C25_gelu_backward", "NNTile.C25_relu", "NNTile.C25_relu_forward", "NNTile.C25_drelu", "NNTile.C25_relu_backward"], "note": "all activation ops over the reals; derivative of relu away from 0"},
{"property": "C26", "status": "proved", "theorems": ["NNTile.C26_schedule_independent", "NNTile.C26_schedules_agree"], "note": ""},
{"property": "C27", "status": "partial", "theorems": ["NNTile.C27_embedding_backward", "NNTile.C27_sum_slice", "NNTile.C27_sumprod_slice_partial", "NNTile.C27_sum_fiber", "NNTile.C27_sumprod_fiber_partial", "NNTile.C27_gemm", "NNTile.C27_norm_slice", "NNTile.C27_maxsumexp"], "note": "sumprod_slice/sumprod_fiber: equality holds when src2 has the tiling of src1 (not checked by the code, see C14/C15); all other accumulating operations in full"},
{"property": "C28", "status": "proved", "theorems": ["NNTile.C28_fresh", "NNTile.C28_wipe", "NNTile.C28_wipe_fresh", "NNTile.C28_fill", "NNTile.C28_clear", "NNTile.C28_copy", "NNTile.C28_scal", "NNTile.C28_sqrt", "NNTile.C28_relu_forward", "NNTile.C28_gelutanh", "NNTile.C28_hypot", "NNTile.C28_add", "NNTile.C28_add_slice", "NNTile.C28_add_slice3", "NNTile.C28_add_fiber", "NNTile.C28_prod_fiber3", "NNTile.C28_transpose", "NNTile.C28_softmax", "NNTile.C28_logsumexp", "NNTile.C28_embedding", "NNTile.C28_scatter", "NNTile.C28_gather", "NNTile.C28_randn", "NNTile.C28_copy_intersection", "NNTile.C28_sum_slice", "NNTile.C28_sumprod_slice", "NNTile.C28_sum_fiber", "NNTile.C28_sumprod_fiber", "NNTile.C28_norm_slice", "NNTile.C28_gemm", "NNTile.C28_nrm2", "NNTile.C28_adam_first"], "note": "Every operation that submits write-only tiles succeeds from arbitrary, also undefined, old contents of its result and defines every element with values independent of them. For the partly refuted operations (add_fiber with alpha=0 submits nothing) see C13."},
{"property": "C29", "status": "proved", "theorems": ["NNTile.C29_init", "NNTile.C29_history", "NNTile.C29_never_enables", "NNTile.C29_calls", "NNTile.C29_library"], "note": "codelet state machine, any history; library-wide calls reach every codelet"},
{"property": "C30", "status": "proved", "theorems": ["NNTile.C30_roundtrip", "NNTile.C30_subcopy", "NNTile.C30_randn", "NNTile.C30_randn_scalar"], "note": "byte-level round trip; pointers beyond the packed arguments stay untouched; end-to-end argument passing of subcopy and randn"},
{"property": "C31", "status": "proved", "theorems": ["NNTile.C31_sumnorm", "NNTile.C31_rejects"], "note": "exact arithmetic with IEEE special values; any tiling; rejection of unfitting arguments"},
{"property": "C32", "status": "partial", "theorems": ["NNTile.C32_normalize_exact", "NNTile.C32_normalize_partial", "NNTile.C32_layer_norm_exact", "NNTile.C32_refuted", "NNTile.C32_rejects"], "note": "False as documented: a slice of zeros becomes NaN although eps > 0 (C32_refuted). C32_normalize_exact / C32_layer_norm_exact characterise the result for all data; the promised value holds for every slice that is not all zero."},
{"property": "C33", "status": "proved", "theorems": ["NNTile.C33_linear_forward", "NNTile.C33_linear_backward", "NNTile.C33_linear_generate", "NNTile.C33_linear_generate_rejects"], "note": "Python layer as a sequence of modelled tensor calls; fp32_convert_fp16 not modelled"},
{"property": "C34", "status": "proved", "theorems": ["NNTile.C34_layer_norm_forward", "NNTile.C34_layer_norm_backward", "NNTile.C34_layer_norm_generate", "NNTile.C34_layer_norm_generate_rejects", "NNTile.C34_layer_norm_forward_rejects"], "note": "Forward, backward (exact gradients with HasDerivAt over the reals), construction and rejection of wrong axes, for all shapes and tilings."},
{"property": "C35", "status": "proved", "theorems": ["NNTile.C35_act", "NNTile.C35_add", "NNTile.C35_add_slice", "NNTile.C35_embedding", "NNTile.C35_linear", "NNTile.C35_layer_norm", "NNTile.C35_act_generate", "NNTile.C35_add_generate", "NNTile.C35_add_slice_generate", "NNTile.C35_embedding_generate"], "note": "Act, Add, AddSlice, Embedding, Linear, LayerNorm satisfy the contract NetLayer.Correct over the reals for all shapes and tilings; generators produce fitting layers with fresh tensors and reject bad arguments. ReLU only where no input element is zero (not differentiable there)."},
{"property": "C36", "status": "proved", "theorems": ["NNTile.C36_layers", "NNTile.C36_forward", "NNTile.C36_backward", "NNTile.C36_jacobian", "NNTile.C36_gradient", "NNTile.C36_operands", "NNTile.C36_clear_gradients", "NNTile.C36_clear_parameters", "NNTile.C36_clear_activations"], "note": "Forward, backward and clearing of gradients proved for any depth and DAG over the modelled layers (real arithmetic); ReLU layers need nonzero inputs for differentiability."},
{"property": "C37", "status": "partial", "theorems": ["NNTile.C37_deep_relu", "NNTile.C37_deep_relu_rejects", "NNTile.C37_deep_linear_partial", "NNTile.C37_deep_linear_refuted", "NNTile.C37_gpt2_mlp", "NNTile.C37_registered"], "note": "DeepReLU and GPT2MLP proved for all arguments; DeepLinear proved for ndim = 1 (C37_deep_linear_partial) and refuted for ndim >= 2: C37_deep_linear_refuted, the constructor always raises there."},
{"property": "C38", "status": "partial", "theorems": ["NNTile.C38_append_partial", "NNTile.C38_append_refuted", "NNTile.C38_append_unregister_refuted"], "note": "False as stated: C38_append_refuted shows that after append clearing of gradients always raises; C38_append_partial: propagation does include the new layer. After append, unregister raises too (C38_append_unregister_refuted)."},
{"property": "C39", "status": "proved", "theorems": ["NNTile.C39_frob_gradient", "NNTile.C39_frob", "NNTile.C39_frob_correct", "NNTile.C39_frob_generate"], "note": "over the reals (exact arithmetic); Frob has no get_val, see C45"},
{"property": "C40", "status": "proved", "theorems": ["NNTile.C40_ce_gradient", "NNTile.C40_cross_entropy", "NNTile.C40_cross_entropy_correct", "NNTile.C40_cross_entropy_generate", "NNTile.C40_cross_entropy_generate_rejects"], "note": "over the reals (exact arithmetic); labels read by an arbitrary decoding function, in range"},
{"property": "C41", "status": "proved", "theorems": ["NNTile.C41_sgd", "NNTile.C41_init"], "note": "over the reals (exact arithmetic)"},
{"property": "C42", "status": "proved", "theorems": ["NNTile.C42_fused_adam", "NNTile.C42_fused_adamw", "NNTile.C42_adam", "NNTile.C42_fused_init", "NNTile.C42_adam_init"], "note": "over the reals (exact arithmetic); second moments are stored as square roots"},
{"property": "C43", "status": "partial", "theorems": ["NNTile.C43_amsgrad_partial", "NNTile.C43_amsgrad_refuted"], "note": "refuted: step size is divided by sqrt(1-beta2^k) instead of multiplied; proved that the optimizer is AMSGrad with learning rate lr/(1-beta2^k)"},
{"property": "C44", "status": "proved", "theorems": ["NNTile.C44_batch", "NNTile.C44_train"], "note": "over the reals (exact arithmetic); Adam with amsgrad is excluded (C43), Frob see C45"},
{"property": "C45", "status": "partial", "theorems": ["NNTile.C45_frob_train_refuted", "NNTile.C45_frob_first_batch_partial"], "note": "False as stated: Frob has no get_val, so train_async always raises AttributeError after the first batch (C45_frob_train_refuted); the batch itself is processed correctly (C45_frob_first_batch_partial)"},
{"property": "C46", "status": "proved", "theorems": ["NNTile.C46_to_array", "NNTile.C46_from_array", "NNTile.C46_array_round_trip", "NNTile.C46_tensor_round_trip", "NNTile.C46_rejects", "NNTile.C46_tile_from_array", "NNTile.C46_tile_to_array", "NNTile.C46_tile_round_trip", "NNTile.C46_tile_rejects"], "note": "Fortran-ordered arrays; conversion of other arrays by pybind11 is third-party code and not modelled"},
{"property": "C47", "status": "proved", "theorems": ["NNTile.C47_attention", "NNTile.C47_meaning", "NNTile.C47_mask_limit", "NNTile.C47_generate", "NNTile.C47_generate_rejects", "NNTile.C47_masked_weights"], "note": "over the reals (mask value finite) and, for the part between the two products, over extended reals with mask value minus infinity; limit theorem connects them"},
{"property": "C48", "status": "proved", "theorems": ["NNTile.C48_gpt2", "NNTile.C48_setup", "NNTile.C48_propagation", "NNTile.C48_causal", "NNTile.C48_limit", "NNTile.C48_meaning"], "note": "over the reals, mask value finite; both attention layers; limit theorem for the mask value minus infinity; backward propagation for activation functions other than relu (relu: C36 under NetRegular)"},
{"property": "C49", "status": "proved", "theorems": ["NNTile.C49_maxsumexp", "NNTile.C49_softmax_gemm", "NNTile.C49_backward", "NNTile.C49_two_outputs", "NNTile.C49_maxsumexp_real", "NNTile.C49_softmax_gemm_real", "NNTile.C49_backward_real"], "note": "evenly dividing tiles (otherwise see C51); mask value is a parameter, finite in the theorems over the reals; rounding of the scale in double instead of single precision in one codelet not modelled"},
{"property": "C50", "status": "proved", "theorems": ["NNTile.C50_flash_attention", "NNTile.C50_same_output", "NNTile.C50_generate", "NNTile.C50_generate_rejects", "NNTile.C50_generate_uneven_heads"], "note": "over the reals; invalidate_submit is a no-op as in the bindings at the pinned commit (if it were enabled, backward_async would read the invalidated maxima and sums); mask value finite"},
{"property": "C51", "status": "partial", "theorems": ["NNTile.C51_drop_in_partial", "NNTile.C51_uneven_refuted", "NNTile.C51_no_mask_refuted"], "note": "holds with a mask and tiles dividing sequence and batch evenly (C51_drop_in_partial); false without a mask (C51_no_mask_refuted: forward_async raises) and for uneven tiles (C51_uneven_refuted: accepted, but every execution accesses memory outside the scratch buffer)"},
{"property": "C52", "status": "proved", "theorems": ["NNTile.C52_fill", "NNTile.C52_add", "NNTile.C52_addScalar", "NNTile.C52_addcdiv", "NNTile.C52_dgelu", "NNTile.C52_dgelutanh", "NNTile.C52_drelu", "NNTile.C52_gelu", "NNTile.C52_geluBackward", "NNTile.C52_gelutanhInplace", "NNTile.C52_gelutanhBackward", "NNTile.C52_hypot", "NNTile.C52_hypotScalarInverse", "NNTile.C52_prod", "NNTile.C52_relu", "NNTile.C52_reluForward", "NNTile.C52_reluBackward", "NNTile.C52_scal", "NNTile.C52_sqrt", "NNTile.C52_sqrtInplace", "NNTile.C52_logsumexp", "NNTile.C52_accumulateMaxsumexp", "NNTile.C52_subtractIndexed", "NNTile.C52_addSlice", "NNTile.C52_addSlice3", "NNTile.C52_prodSlice", "NNTile.C52_prodFiber", "NNTile.C52_prodFiber3", "NNTile.C52_pow", "NNTile.C52_sumnorm", "NNTile.C52_normalize", "NNTile.C52_addFiber", "NNTile.C52_embedding", "NNTile.C52_maskScalar", "NNTile.C52_transpose", "NNTile.C52_adam", "NNTile.C52_adamw"], "note": "for every arithmetic; device rounding of library functions and fused multiply-add not modelled; sizes within launch limits (see C54 for what happens beyond); pow for exponents other than -1, add_fiber for beta other than 0"},
{"property": "C53", "status": "proved", "theorems": ["NNTile.C53_embeddingBackward", "NNTile.C53_totalSumAccum", "NNTile.C53_maximum", "NNTile.C53_gelutanh", "NNTile.C53_pow"], "note": "over the reals; sizes within launch limits"},
{"property": "C54", "status": "partial", "theorems": ["NNTile.C54_sumprodFiber_refuted", "NNTile.C54_addFiber_refuted", "NNTile.C54_slices_refuted", "NNTile.C54_mask_embedding_refuted", "NNTile.C54_elementwise_refuted", "NNTile.C54_add_refuted", "NNTile.C54_pairs_refuted", "NNTile.C54_addFiber_undefined_refuted", "NNTile.C54_normSlice_refuted", "NNTile.C54_softmax_refuted", "NNTile.C54_maxsumexp_refuted", "NNTile.C54_add_partial", "NNTile.C54_sumprodFiber_partial", "NNTile.C54_normSlice_partial"], "note": "refuted with witnesses (families of sizes where possible); the bounds in C52, C53, C55 are those for which it holds"},
{"property": "C55", "status": "proved", "theorems": ["NNTile.C55_sumSlice", "NNTile.C55_sumprodSlice", "NNTile.C55_sumFiber", "NNTile.C55_sumprodFiber", "NNTile.C55_normSlice", "NNTile.C55_softmax", "NNTile.C55_softmaxInplace", "NNTile.C55_maxsumexp"], "note": "reals (softmax: every arithmetic; maxsumexp: extended reals with the mask); sizes within launch limits, norm_slice for fibers that are not identically zero (both shown necessary in C54)"},
{"property": "C56", "status": "proved", "theorems": ["NNTile.C56_adam", "NNTile.C56_fused_adamw", "NNTile.C56_fused_adam", "NNTile.C56_adam_resumes", "NNTile.C56_fused_adamw_resumes"], "note": "arbitrary arithmetic; resumed training over the reals (Adam, FusedAdamW); the remaining cases are false, see C57"},
{"property": "C57", "status": "partial", "theorems": ["NNTile.C57_amsgrad_last", "NNTile.C57_amsgrad_partial", "NNTile.C57_fused_adam_default_refuted", "NNTile.C57_unknown_dtype_refuted", "NNTile.C57_scalar_refuted", "NNTile.C57_amsgrad_refuted"], "note": "the full statement is false of the code (the _refuted theorems); proved for amsgrad with one parameter"},
{"property": "C58", "status": "proved", "theorems": ["NNTile.C58_clear", "NNTile.C58_fill", "NNTile.C58_scal_inplace", "NNTile.C58_pow", "NNTile.C58_sqrt_inplace", "NNTile.C58_relu", "NNTile.C58_drelu", "NNTile.C58_gelu", "NNTile.C58_dgelu", "NNTile.C58_gelutanh_inplace", "NNTile.C58_dgelutanh", "NNTile.C58_add_scalar", "NNTile.C58_scal", "NNTile.C58_add", "NNTile.C58_hypot", "NNTile.C58_prod", "NNTile.C58_maximum", "NNTile.C58_relu_forward", "NNTile.C58_relu_backward", "NNTile.C58_gelu_backward", "NNTile.C58_gelutanh_backward", "NNTile.C58_axpy_scalar", "NNTile.C58_axpy", "NNTile.C58_copy", "NNTile.C58_addcdiv", "NNTile.C58_adam_step", "NNTile.C58_adamw_step", "NNTile.C58_add_slice", "NNTile.C58_add_slice3", "NNTile.C58_prod_slice", "NNTile.C58_sum_slice", "NNTile.C58_norm_slice", "NNTile.C58_sumprod_slice", "NNTile.C58_add_fiber", "NNTile.C58_sum_fiber", "NNTile.C58_prod_fiber", "NNTile.C58_prod_fiber3", "NNTile.C58_sumprod_fiber", "NNTile.C58_maxsumexp", "NNTile.C58_normalize", "NNTile.C58_softmax", "NNTile.C58_softmax_inplace", "NNTile.C58_logsumexp", "NNTile.C58_total_sum_accum", "NNTile.C58_subtract_indexed_outputs", "NNTile.C58_randn", "NNTile.C58_gemm", "NNTile.C58_computes"], "note": "arbitrary arithmetic; the pairs for which the claim is false are in C59"},
{"property": "C59", "status": "partial", "theorems": ["NNTile.C59_sqrt_partial", "NNTile.C59_gelutanh_partial", "NNTile.C59_mask_scalar_partial", "NNTile.C59_sumnorm_partial", "NNTile.C59_nrm2_partial", "NNTile.C59_sqrt_refuted", "NNTile.C59_gelutanh_refuted", "NNTile.C59_mask_scalar_refuted", "NNTile.C59_sumnorm_refuted", "NNTile.C59_gemm_refuted", "NNTile.C59_nrm2_refuted"], "note": "the full statement is false of the code (the _refuted theorems); proved for matching shapes, cleared outputs and scalar temporaries"},
{"property": "C60", "status": "proved", "theorems": ["NNTile.C60_from_torch", "NNTile.C60_to_torch", "NNTile.C60_round_trip", "NNTile.C60_round_trip_back", "NNTile.C60_shared"], "note": "arbitrary element type; exact. C60_shared states the effect of tied weights"},
{"property": "C61", "status": "proved", "theorems": ["NNTile.C61_function", "NNTile.C61_limit", "NNTile.C61_from_torch", "NNTile.C61_to_torch"], "note": "over exact reals; the PyTorch side is the specification torchGpt (dropout off)"},
{"property": "C62", "status": "proved", "theorems": ["NNTile.C62_constructor", "NNTile.C62_forward", "NNTile.C62_backward", "NNTile.C62_clear", "NNTile.C62_step", "NNTile.C62_gap_overwrites", "NNTile.C62_rejects", "NNTile.C62_tiled_patches", "NNTile.C62_registered"], "note": "over exact reals; C62_gap_overwrites and C62_tiled_patches state the limits"},
{"property": "C63", "status": "partial", "theorems": ["NNTile.C63_function", "NNTile.C63_from_torch_partial", "NNTile.C63_square", "NNTile.C63_square_differs", "NNTile.C63_no_layers", "NNTile.C63_classes"], "note": "false if the number of pixels of a patch is hidden_dim (C63_square, C63_square_differs); proved in all other cases"},
{"property": "C64", "status": "proved", "theorems": ["NNTile.C64_from_torch", "NNTile.C64_to_torch", "NNTile.C64_round_trip", "NNTile.C64_round_trip_back", "NNTile.C64_to_torch_function", "NNTile.C64_surplus"], "note": "arbitrary element type; exact. Where the sizes make from_torch load a matrix untransposed, see C63"},
{"property": "C65", "status": "proved", "theorems": ["NNTile.C65_lifecycle", "NNTile.C65_no_leak", "NNTile.C65_kept", "NNTile.C65_unregister_twice", "NNTile.C65_gone_stays", "NNTile.C65_tensor", "NNTile.C65_invalid_mode", "NNTile.C65_zero_size"], "note": "single thread; StarPU itself is represented by its calls"},
{"property": "C66", "status": "partial", "theorems": ["NNTile.C66_disciplined_partial", "NNTile.C66_all_released", "NNTile.C66_scope", "NNTile.C66_copy", "NNTile.C66_release_twice", "NNTile.C66_acquire_twice", "NNTile.C66_unregistered"], "note": "proved for disciplined histories (C66_disciplined_partial, C66_scope); false for copies, repeated release/acquire and null handles (C66_copy, C66_release_twice, C66_acquire_twice, C66_unregistered)"},
{"property": "C67", "status": "proved", "theorems": ["NNTile.C67_tile", "NNTile.C67_tile_overflow", "NNTile.C67_index", "NNTile.C67_linear", "NNTile.C67_tensor", "NNTile.C67_tile_shape"], "note": "justifies the use of unbounded integers in Model/Traits"},
{"property": "C68", "status": "partial", "theorems": ["NNTile.C68_memory_partial", "NNTile.C68_small", "NNTile.C68_overflow", "NNTile.C68_overflow_reached", "NNTile.C68_user_memory"], "note": "proved if nelems*sizeof(T) < 2^64, for one- and two-byte elements, and for user buffers; refuted otherwise (C68_overflow, C68_overflow_reached)"},
{"property": "C69", "status": "proved", "theorems": ["NNTile.C69_from_torch", "NNTile.C69_rejects", "NNTile.C69_one_layer", "NNTile.C69_other", "NNTile.C69_no_mlp"], "note": "arithmetic over the reals; file:line in the model; the PyTorch side is a specification"},
{"property": "C70", "status": "proved", "theorems": ["NNTile.C70_from_torch", "NNTile.C70_too_few"], "note": "arithmetic over the reals; the PyTorch side is a specification"},
{"property": "C71", "status": "proved", "theorems": ["NNTile.C71_patching", "NNTile.C71_rgb", "NNTile.C71_rejects"], "note": "integer arithmetic below 2^53 (Python float division); bit-exact for any element type"},
{"property": "C72", "status": "partial", "theorems": ["NNTile.C72_dispatch_partial", "NNTile.C72_scatter_partial", "NNTile.C72_scatter_fp64", "NNTile.C72_scatter_core"], "note": "proved for 61 functions, and for scatter_async in the other types; refuted for scatter_async in double precision (C72_scatter_fp64). pybind11's acceptance of arguments is part of the model"},
{"property": "C73", "status": "proved", "theorems": ["NNTile.C73_fp32_to_fp16", "NNTile.C73_fp16_to_fp32", "NNTile.C73_roundtrip", "NNTile.C73_rejects", "NNTile.C73_no_cuda", "NNTile.C73_tile", "NNTile.C73_cuda_fp32_to_fp16", "NNTile.C73_cuda_fp16_to_fp32"], "note": "conversion of a single element is a parameter of the model"},
{"property": "C74", "status": "partial", "theorems": ["NNTile.C74_generate", "NNTile.C74_forward", "NNTile.C74_backward_partial", "NNTile.C74_backward_refuted", "NNTile.C74_not_required_refuted", "NNTile.C74_fp16_to_fp32_refuted", "NNTile.C74_fp16_to_fp32_partial", "NNTile.C74_types"], "note": "proved: generate, forward, backward if the gradient was zero; refuted: accumulation (C74_backward_refuted), no gradient (C74_not_required_refuted), FP16_to_FP32 (C74_fp16_to_fp32_refuted)"},
{"property": "C75", "status": "proved", "theorems": ["NNTile.C75_gemm_ex", "NNTile.C75_gemm_ex_rejects", "NNTile.C75_exact", "NNTile.C75_no_cuda", "NNTile.C75_tile", "NNTile.C75_batch_unchecked", "NNTile.C75_linear", "NNTile.C75_submitted", "NNTile.C75_linear_backward"], "note": "over the reals with an arbitrary rounding function for the factors; cuBLAS is modelled by its definition"},
{"property": "C76", "status": "partial", "theorems": ["NNTile.C76_gather_refuted", "NNTile.C76_scatter_refuted", "NNTile.C76_scatter_partial", "NNTile.C76_gather_partial", "NNTile.C76_rejects"], "note": "proved for tensors of a single tile and for rejected arguments; refuted for all tensors of several tiles (C76_gather_refuted, C76_scatter_refuted)"},
{"property": "C77", "status": "partial", "theorems": ["NNTile.C77_period", "NNTile.C77_formula", "NNTile.C77_odd_partial", "NNTile.C77_even_partial", "NNTile.C77_refuted", "NNTile.C77_seed100"], "note": "proved for odd seeds and, for even seeds, everywhere but at the one bad position; refuted for seed 0 (C77_refuted)"},
{"property": "C78", "status": "proved", "theorems": ["NNTile.C78_layer", "NNTile.C78_finite", "NNTile.C78_same_numbers", "NNTile.C78_linears", "NNTile.C78_all", "NNTile.C78_deep_relu"], "note": ""},
{"property": "C79", "status": "proved", "theorems": ["NNTile.C79_input", "NNTile.C79_deep_relu", "NNTile.C79_deep_linear", "NNTile.C79_gpt2_mlp", "NNTile.C79_gpt2", "NNTile.C79_mlp_mixer", "NNTile.C79_frob", "NNTile.C79_cross_entropy", "NNTile.C79_sgd", "NNTile.C79_fused", "NNTile.C79_adam", "NNTile.C79_starpu"], "note": "tensors are identified by the numbers given to them by the constructors; attention layers with biases (the only ones the constructors make)"},
{"property": "C80", "status": "proved", "theorems": ["NNTile.C80_no_error", "NNTile.C80_result", "NNTile.C80_progress", "NNTile.C80_terminates", "NNTile.C80_executions_agree", "NNTile.C80_loss_tasks", "NNTile.C80_sgd", "NNTile.C80_adam"], "note": "over the real numbers (accumulation in another order changes floating-point rounding); STARPU_REDUX as documented by StarPU; the value of a mask is a real number"},
{"property": "C81", "status": "partial", "theorems": ["NNTile.C81_layer_partial", "NNTile.C81_model_partial", "NNTile.C81_loss_partial", "NNTile.C81_act_none_partial", "NNTile.C81_linear_none_partial", "NNTile.C81_clear_none_partial", "NNTile.C81_none_refuted", "NNTile.C81_loss_none_refuted", "NNTile.C81_optimizers_refuted", "NNTile.C81_sgd_refuted", "NNTile.C81_add_refuted", "NNTile.C81_flags_refuted"], "note": "refuted parts: Add, AddSlice, LayerNorm and Embedding ignore grad_required; optimizers update frozen parameters; constructors and the cross-entropy loss raise AttributeError without a gradient"},
{"property": "C82", "status": "partial", "theorems": ["NNTile.C82_from_array", "NNTile.C82_to_array_partial", "NNTile.C82_to_array_refuted", "NNTile.C82_c_order", "NNTile.C82_rejects", "NNTile.C82_tile_from_array", "NNTile.C82_tile_to_array_partial", "NNTile.C82_tile_to_array_refuted", "NNTile.C82_zeros_refuted"], "note": "refuted part: to_array silently leaves arrays unchanged which pybind11 has to convert (C order, or another element type with a safe conversion)"},
{"property": "C83", "status": "proved", "theorems": ["NNTile.C83_wait", "NNTile.C83_read", "NNTile.C83_reads", "NNTile.C83_any_moment", "NNTile.C83_progress", "NNTile.C83_blocking", "NNTile.C83_never_ends"], "note": "StarPU's own code is not in the repository; its documented ordering of tasks and acquisitions is the model"},
{"property": "C84", "status": "partial", "theorems": ["NNTile.C84_forward_partial", "NNTile.C84_forward_refuted", "NNTile.C84_backward_refuted", "NNTile.C84_linear_refuted"], "note": "refuted: forward() and backward() raise NameError for every layer, and backward() calls forward_async()"},
{"property": "C85", "status": "proved", "theorems": ["NNTile.C85_training", "NNTile.C85_history", "NNTile.C85_progress", "NNTile.C85_gradient_training"], "note": "for the cross entropy loss, as C44 (the loss Frob has no get_val, see C45); StarPU's own code is not in the repository"},
{"property": "C86", "status": "partial", "theorems": ["NNTile.C86_scoped_partial", "NNTile.C86_ended_partial", "NNTile.C86_throw", "NNTile.C86_shutdown_refuted", "NNTile.C86_copy_refuted", "NNTile.C86_shutdown_other_refuted"], "note": "proved for scoped use; calls of the method shutdown (StarPU is then ended twice, an assertion fails) and copies are refuted; the counters of StarPU are modelled after its documentation, its code is not in the repository"},
{"property": "C87", "status": "proved", "theorems": ["NNTile.C87_program", "NNTile.C87_history", "NNTile.C87_progress", "NNTile.C87_exchange", "NNTile.C87_round_trip"], "note": "for tensors; the data of programs which fail or use memory outside its bounds without concurrency is not claimed; StarPU's own code is not in the repository"},
{"property": "C88", "status": "partial", "theorems": ["NNTile.C88_rejects_partial", "NNTile.C88_new_refuted", "NNTile.C88_accepts_partial", "NNTile.C88_never_refuted", "NNTile.C88_from_torch_refuted", "NNTile.C88_from_torch_mlp_refuted"], "note": "Proved: wrong arguments are rejected, and the missing name is the only obstacle in the constructor. Refuted: right arguments give a model, from_torch gives a model; the module uses fp32_fast_tf32 and DeepReLU, which it neither defines nor imports."},
{"property": "C89", "status": "partial", "theorems": ["NNTile.C89_generate_partial", "NNTile.C89_gpt2_partial", "NNTile.C89_positions_partial", "NNTile.C89_one_token_refuted", "NNTile.C89_last_token_refuted", "NNTile.C89_lines_refuted", "NNTile.C89_refuted"], "note": "Proved: one line with at least two tokens is continued without its last token (the end of the line), too many tokens give IndexError. Refuted: the whole text is continued: the last token is dropped even if the line has no end; a line of one token is continued by the logits of the last position of the filler (negative index); lines behind the first are ignored or rejected."},
{"property": "C90", "status": "proved", "theorems": ["NNTile.C90_rejects", "NNTile.C90_batches", "NNTile.C90_once", "NNTile.C90_left"], "note": "the tokenizer and the data set are not modelled"},
{"property": "C91", "status": "partial", "theorems": ["NNTile.C91_rejects_partial", "NNTile.C91_once_partial", "NNTile.C91_bounds_partial", "NNTile.C91_left_refuted"], "note": "Proved: everything for minibatch sizes which divide the batch size; for all sizes no image is used twice or lies outside. Refuted: for other minibatch sizes the last images of each batch are left out silently (mlp_mixer_nntile.py checks the sizes before, the loaders do not)."}
]}
