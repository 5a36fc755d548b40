# Axioms each theorem depends on (`#print axioms`)

## propext, Classical.choice, Quot.sound

`C01_linear_roundtrip`, `C01_index_roundtrip`, `C01_index_rejected`, `C01_linear_rejected`, `C01_contains_index`, `C01_injective`, `C02_accepts_iff`, `C02_metadata`, `C03_partition`, `C03_tile_inside`, `C03_tile_shape`, `C03_sizes_sum`, `C04_traits_accept_iff`, `C04_tensor`, `C05_block_cyclic_partial`, `C05_rank_formula_partial`, `C06_jump_exact`, `C06_jump_eq_generate`, `C06_jump_add`, `C06_jump_zero`, `C06_jump_injective`, `C07_kernel`, `C07_accepts`, `C07_randn`, `C07_slice`, `C07_tiling_independent`, `C08_subcopy_strided`, `C08_subcopy_tiles`, `C09_scatter`, `C09_gather`, `C09_gather_scatter`, `C09_rejects`, `C09_copy`, `C09_copy_rejects`, `C10_copy_intersection`, `C10_rejects`, `C10_empty`, `C10_tile`, `C10_tile_rejects`, `C11_fill`, `C11_clear`, `C11_scal_inplace`, `C11_add_scalar_bits`, `C11_pow`, `C11_sqrt_inplace`, `C11_relu`, `C11_drelu`, `C11_gelu`, `C11_dgelu`, `C11_gelutanh_inplace`, `C11_dgelutanh`, `C11_hypot_scalar_inverse`, `C11_prod`, `C11_maximum`, `C11_sqrt`, `C11_relu_forward`, `C11_gelutanh`, `C11_relu_backward`, `C11_gelu_backward`, `C11_gelutanh_backward`, `C11_axpy`, `C11_addcdiv_partial`, `C11_scal_bits`, `C11_add_bits_partial`, `C11_hypot_bits`, `C11_scal`, `C11_add_scalar`, `C11_add_partial`, `C11_hypot_partial`, `C11_rejects2`, `C11_rejects_axpy`, `C11_rejects3`, `C11_add_refuted`, `C11_hypot_refuted`, `C11_addcdiv_tiling_unchecked`, `C11_axpy_scalar`, `C11_addcdiv_rejects`, `C12_add_slice_bits`, `C12_add_slice3_bits`, `C12_prod_slice`, `C12_add_slice_rejects`, `C12_add_slice3_rejects`, `C12_prod_slice_rejects`, `C12_add_slice`, `C12_add_slice3`, `C13_add_fiber_bits_partial`, `C13_prod_fiber`, `C13_prod_fiber3`, `C13_add_fiber_rejects_partial`, `C13_add_fiber_rejects_refuted`, `C13_prod_fiber_rejects`, `C13_prod_fiber3_rejects`, `C13_add_fiber_partial`, `C13_add_fiber_refuted`, `C14_sum_slice`, `C14_sumprod_slice_partial`, `C14_sum_slice_rejects`, `C14_sumprod_slice_rejects_partial`, `C14_sumprod_slice_refuted`, `C15_sum_fiber`, `C15_sumprod_fiber_partial`, `C15_sum_fiber_rejects_partial`, `C15_sum_fiber_batch_refuted`, `C15_sumprod_fiber_rejects_partial`, `C15_sumprod_fiber_refuted`, `C16_norm_slice`, `C16_nrm2`, `C16_norm_slice_nonneg`, `C16_norm_slice_rejects`, `C16_nrm2_rejects`, `C17_gemm`, `C17_gemm_rejects`, `C17_gemm_matrix`, `C18_transpose`, `C18_transpose_rejects`, `C18_transpose_involutive`, `C19_maxsumexp`, `C19_any_execution`, `C19_clear_maxsumexp`, `C19_rejects`, `C19_meaning`, `C19_maxsumexp_real`, `C19_real_meaning`, `C20_softmax_bits`, `C20_softmax_inplace_bits`, `C20_logsumexp_bits`, `C20_softmax`, `C20_softmax_inplace`, `C20_logsumexp`, `C20_chain`, `C20_distribution`, `C20_shift_invariant`, `C20_softmax_rejects`, `C20_softmax_inplace_rejects`, `C20_logsumexp_rejects`, `C21_mask_scalar`, `C21_idempotent`, `C21_rejects_partial`, `C21_rejects_refuted`, `C22_embedding`, `C22_embedding_backward`, `C22_adjoint`, `C22_rejects_partial`, `C22_dim_refuted`, `C22_vocab_refuted`, `C22_axis_refuted`, `C23_subtract_indexed_outputs`, `C23_total_sum_accum`, `C23_rejects`, `C23_gradient`, `C24_adam_first_step`, `C24_adam_step`, `C24_adamw_first_step`, `C24_adamw_step`, `C24_adam_training`, `C24_adamw_training`, `C24_rejects_partial`, `C24_tiling_refuted`, `C25_gelutanh_differentiable`, `C25_gelu_differentiable`, `C25_relu_differentiable`, `C25_gelutanh`, `C25_gelutanh_inplace`, `C25_dgelutanh`, `C25_gelutanh_backward`, `C25_gelu`, `C25_dgelu`, `C25_gelu_backward`, `C25_relu`, `C25_relu_forward`, `C25_drelu`, `C25_relu_backward`, `C26_schedule_independent`, `C26_schedules_agree`, `C27_embedding_backward`, `C27_sum_slice`, `C27_sumprod_slice_partial`, `C27_sum_fiber`, `C27_sumprod_fiber_partial`, `C27_gemm`, `C27_norm_slice`, `C27_maxsumexp`, `C28_fill`, `C28_clear`, `C28_copy`, `C28_scal`, `C28_sqrt`, `C28_relu_forward`, `C28_gelutanh`, `C28_hypot`, `C28_add`, `C28_add_slice`, `C28_add_slice3`, `C28_add_fiber`, `C28_prod_fiber3`, `C28_transpose`, `C28_softmax`, `C28_logsumexp`, `C28_embedding`, `C28_scatter`, `C28_gather`, `C28_randn`, `C28_copy_intersection`, `C28_sum_slice`, `C28_sumprod_slice`, `C28_sum_fiber`, `C28_sumprod_fiber`, `C28_norm_slice`, `C28_gemm`, `C28_nrm2`, `C28_adam_first`, `C30_roundtrip`, `C30_subcopy`, `C30_randn`, `C30_randn_scalar`, `C31_sumnorm`, `C31_rejects`, `C32_normalize_exact`, `C32_normalize_partial`, `C32_layer_norm_exact`, `C32_refuted`, `C32_rejects`, `C33_linear_forward`, `C33_linear_backward`, `C33_linear_generate`, `C33_linear_generate_rejects`, `C34_layer_norm_forward`, `C34_layer_norm_backward`, `C34_layer_norm_generate`, `C34_layer_norm_generate_rejects`, `C34_layer_norm_forward_rejects`, `C35_act`, `C35_add`, `C35_add_slice`, `C35_embedding`, `C35_linear`, `C35_layer_norm`, `C35_act_generate`, `C35_add_generate`, `C35_add_slice_generate`, `C35_embedding_generate`, `C36_layers`, `C36_forward`, `C36_backward`, `C36_jacobian`, `C36_gradient`, `C36_operands`, `C36_clear_gradients`, `C36_clear_parameters`, `C36_clear_activations`, `C37_deep_relu`, `C37_deep_relu_rejects`, `C37_deep_linear_partial`, `C37_deep_linear_refuted`, `C37_gpt2_mlp`, `C37_registered`, `C38_append_partial`, `C38_append_refuted`, `C39_frob_gradient`, `C39_frob`, `C39_frob_correct`, `C39_frob_generate`, `C40_ce_gradient`, `C40_cross_entropy`, `C40_cross_entropy_correct`, `C40_cross_entropy_generate`, `C40_cross_entropy_generate_rejects`, `C41_sgd`, `C41_init`, `C42_fused_adam`, `C42_fused_adamw`, `C42_adam`, `C42_fused_init`, `C42_adam_init`, `C43_amsgrad_partial`, `C43_amsgrad_refuted`, `C44_batch`, `C44_train`, `C45_frob_train_refuted`, `C45_frob_first_batch_partial`, `C46_to_array`, `C46_from_array`, `C46_array_round_trip`, `C46_tensor_round_trip`, `C46_rejects`, `C46_tile_from_array`, `C46_tile_to_array`, `C46_tile_round_trip`, `C46_tile_rejects`, `C47_attention`, `C47_meaning`, `C47_mask_limit`, `C47_generate`, `C47_generate_rejects`, `C47_masked_weights`, `C48_gpt2`, `C48_setup`, `C48_propagation`, `C48_causal`, `C48_limit`, `C48_meaning`, `C49_maxsumexp`, `C49_softmax_gemm`, `C49_backward`, `C49_two_outputs`, `C49_maxsumexp_real`, `C49_softmax_gemm_real`, `C49_backward_real`, `C50_flash_attention`, `C50_same_output`, `C50_generate`, `C50_generate_rejects`, `C50_generate_uneven_heads`, `C51_drop_in_partial`, `C51_uneven_refuted`, `C51_no_mask_refuted`, `C52_fill`, `C52_add`, `C52_addScalar`, `C52_addcdiv`, `C52_dgelu`, `C52_dgelutanh`, `C52_drelu`, `C52_gelu`, `C52_geluBackward`, `C52_gelutanhInplace`, `C52_gelutanhBackward`, `C52_hypot`, `C52_hypotScalarInverse`, `C52_prod`, `C52_relu`, `C52_reluForward`, `C52_reluBackward`, `C52_scal`, `C52_sqrt`, `C52_sqrtInplace`, `C52_logsumexp`, `C52_accumulateMaxsumexp`, `C52_subtractIndexed`, `C52_addSlice`, `C52_addSlice3`, `C52_prodSlice`, `C52_prodFiber`, `C52_prodFiber3`, `C52_pow`, `C52_sumnorm`, `C52_normalize`, `C52_addFiber`, `C52_embedding`, `C52_maskScalar`, `C52_transpose`, `C52_adam`, `C52_adamw`, `C53_embeddingBackward`, `C53_totalSumAccum`, `C53_maximum`, `C53_gelutanh`, `C53_pow`, `C54_sumprodFiber_refuted`, `C54_addFiber_refuted`, `C54_slices_refuted`, `C54_elementwise_refuted`, `C54_add_refuted`, `C54_pairs_refuted`, `C54_addFiber_undefined_refuted`, `C54_normSlice_refuted`, `C54_softmax_refuted`, `C54_maxsumexp_refuted`, `C54_add_partial`, `C54_sumprodFiber_partial`, `C54_normSlice_partial`, `C55_sumSlice`, `C55_sumprodSlice`, `C55_sumFiber`, `C55_sumprodFiber`, `C55_normSlice`, `C55_softmax`, `C55_softmaxInplace`, `C55_maxsumexp`, `C56_adam`, `C56_fused_adamw`, `C56_fused_adam`, `C56_adam_resumes`, `C56_fused_adamw_resumes`, `C57_amsgrad_last`, `C57_amsgrad_partial`, `C57_fused_adam_default_refuted`, `C57_unknown_dtype_refuted`, `C57_scalar_refuted`, `C57_amsgrad_refuted`, `C58_clear`, `C58_fill`, `C58_scal_inplace`, `C58_pow`, `C58_sqrt_inplace`, `C58_relu`, `C58_drelu`, `C58_gelu`, `C58_dgelu`, `C58_gelutanh_inplace`, `C58_dgelutanh`, `C58_add_scalar`, `C58_scal`, `C58_add`, `C58_hypot`, `C58_prod`, `C58_maximum`, `C58_relu_forward`, `C58_relu_backward`, `C58_gelu_backward`, `C58_gelutanh_backward`, `C58_axpy_scalar`, `C58_axpy`, `C58_addcdiv`, `C58_adam_step`, `C58_adamw_step`, `C58_add_slice`, `C58_add_slice3`, `C58_prod_slice`, `C58_sum_slice`, `C58_norm_slice`, `C58_sumprod_slice`, `C58_add_fiber`, `C58_sum_fiber`, `C58_prod_fiber`, `C58_prod_fiber3`, `C58_sumprod_fiber`, `C58_maxsumexp`, `C58_normalize`, `C58_softmax`, `C58_softmax_inplace`, `C58_logsumexp`, `C58_total_sum_accum`, `C58_subtract_indexed_outputs`, `C58_randn`, `C58_gemm`, `C59_sqrt_partial`, `C59_gelutanh_partial`, `C59_mask_scalar_partial`, `C59_sumnorm_partial`, `C59_nrm2_partial`, `C59_sqrt_refuted`, `C59_gelutanh_refuted`, `C59_mask_scalar_refuted`, `C59_sumnorm_refuted`, `C59_gemm_refuted`, `C59_nrm2_refuted`, `C60_from_torch`, `C60_to_torch`, `C60_round_trip`, `C60_round_trip_back`, `C60_shared`, `C61_function`, `C61_limit`, `C61_from_torch`, `C61_to_torch`, `C62_constructor`, `C62_forward`, `C62_backward`, `C62_clear`, `C62_step`, `C62_gap_overwrites`, `C62_rejects`, `C62_tiled_patches`, `C62_registered`, `C63_function`, `C63_from_torch_partial`, `C63_square`, `C63_square_differs`, `C63_no_layers`, `C63_classes`, `C64_from_torch`, `C64_to_torch`, `C64_round_trip`, `C64_round_trip_back`, `C64_to_torch_function`, `C64_surplus`, `C65_lifecycle`, `C65_no_leak`, `C65_kept`, `C65_unregister_twice`, `C65_gone_stays`, `C65_tensor`, `C65_invalid_mode`, `C66_disciplined_partial`, `C66_all_released`, `C66_scope`, `C66_unregistered`, `C67_tile`, `C67_tile_overflow`, `C67_index`, `C67_linear`, `C67_tensor`, `C67_tile_shape`, `C68_memory_partial`, `C68_small`, `C68_overflow`, `C68_user_memory`, `C69_from_torch`, `C69_rejects`, `C69_one_layer`, `C69_other`, `C70_from_torch`, `C70_too_few`, `C71_patching`, `C71_rgb`, `C71_rejects`, `C72_dispatch_partial`, `C72_scatter_partial`, `C73_fp32_to_fp16`, `C73_fp16_to_fp32`, `C73_roundtrip`, `C73_no_cuda`, `C73_tile`, `C73_cuda_fp32_to_fp16`, `C73_cuda_fp16_to_fp32`, `C74_generate`, `C74_forward`, `C74_backward_partial`, `C74_backward_refuted`, `C74_fp16_to_fp32_partial`, `C74_types`, `C75_gemm_ex`, `C75_gemm_ex_rejects`, `C75_exact`, `C75_no_cuda`, `C75_tile`, `C75_linear`, `C75_linear_backward`, `C76_gather_refuted`, `C76_scatter_refuted`, `C76_scatter_partial`, `C76_gather_partial`, `C77_period`, `C77_formula`, `C77_odd_partial`, `C77_even_partial`, `C77_refuted`, `C77_seed100`, `C78_layer`, `C78_finite`, `C78_same_numbers`, `C78_linears`, `C78_all`, `C78_deep_relu`, `C79_deep_relu`, `C79_deep_linear`, `C79_gpt2_mlp`, `C79_gpt2`, `C79_mlp_mixer`, `C79_frob`, `C79_cross_entropy`, `C79_sgd`, `C79_fused`, `C79_adam`, `C79_starpu`, `C80_no_error`, `C80_result`, `C80_progress`, `C80_terminates`, `C80_executions_agree`, `C80_loss_tasks`, `C80_sgd`, `C80_adam`, `C81_layer_partial`, `C81_model_partial`, `C81_act_none_partial`, `C81_none_refuted`, `C81_sgd_refuted`, `C81_add_refuted`, `C82_from_array`, `C82_to_array_partial`, `C82_to_array_refuted`, `C82_c_order`, `C82_rejects`, `C82_tile_from_array`, `C82_tile_to_array_partial`, `C82_tile_to_array_refuted`, `C82_zeros_refuted`, `C84_forward_refuted`, `C84_backward_refuted`, `C84_linear_refuted`, `C85_training`, `C85_history`, `C85_progress`, `C85_gradient_training`, `C86_ended_partial`, `C86_shutdown_refuted`, `C86_copy_refuted`, `C86_shutdown_other_refuted`, `C87_program`, `C87_history`, `C87_progress`, `C87_exchange`, `C87_round_trip`, `C88_rejects_partial`, `C88_new_refuted`, `C88_never_refuted`, `C88_from_torch_refuted`, `C88_from_torch_mlp_refuted`, `C89_generate_partial`, `C89_gpt2_partial`, `C89_positions_partial`, `C89_one_token_refuted`, `C89_last_token_refuted`, `C89_lines_refuted`, `C90_batches`, `C90_left`, `C91_bounds_partial`

## propext, Quot.sound

`C05_rejects`, `C05_scalar_always_ub`, `C11_axpy_scalar_rejects`, `C28_fresh`, `C28_wipe`, `C29_init`, `C29_history`, `C29_never_enables`, `C29_calls`, `C29_library`, `C54_mask_embedding_refuted`, `C58_copy`, `C58_computes`, `C65_zero_size`, `C66_copy`, `C66_release_twice`, `C66_acquire_twice`, `C69_no_mlp`, `C72_scatter_fp64`, `C73_rejects`, `C74_fp16_to_fp32_refuted`, `C75_batch_unchecked`, `C75_submitted`, `C76_rejects`, `C81_linear_none_partial`, `C81_optimizers_refuted`, `C83_wait`, `C83_read`, `C83_reads`, `C83_any_moment`, `C83_progress`, `C83_blocking`, `C83_never_ends`, `C84_forward_partial`, `C86_scoped_partial`, `C88_accepts_partial`, `C90_once`, `C91_once_partial`, `C91_left_refuted`

## propext

`C05_scalar_grid_ub`, `C05_zero_node_grid_ub`, `C05_negative_node_grid_rank`, `C08_scalar_ub`, `C28_wipe_fresh`, `C38_append_unregister_refuted`, `C68_overflow_reached`, `C72_scatter_core`, `C74_not_required_refuted`, `C79_input`, `C81_loss_partial`, `C81_clear_none_partial`, `C81_loss_none_refuted`, `C81_flags_refuted`, `C86_throw`, `C89_refuted`, `C90_rejects`

## none

`C91_rejects_partial`

