{
 "claims": [
  {
   "property": "C01",
   "status": "partial",
   "theorems": [
    "Pmesh.C01_delivery_partial",
    "Pmesh.C01_delivery_open_partial",
    "Pmesh.flagsAgree_identity",
    "Pmesh.flagsAgree_nonempty",
    "Pmesh.C01_violated_smoothing"
   ],
   "note": "The code violates the claim for smoothing close to the box (C01_violated_smoothing) and for empty domains with a non-identity assignment (C12_violated). Proved for all grids, positions and assignments under SmoothingFits and FlagsAgree."
  },
  {
   "property": "C02",
   "status": "proved",
   "theorems": [
    "Pmesh.C02_unique_ordered"
   ],
   "note": "Assigned ranks must be below the number of domains, otherwise the code reads out of bounds (C12_violated_out_of_bounds)."
  },
  {
   "property": "C03",
   "status": "proved",
   "theorems": [
    "Pmesh.C03_partition",
    "Pmesh.C03_isprimary"
   ],
   "note": "Periodic grids. Also covers empty domains whose flags are seen at the right place (FlagsAgree)."
  },
  {
   "property": "C04",
   "status": "proved",
   "theorems": [
    "Pmesh.C04_exchange",
    "Pmesh.C04_layout_ok",
    "Pmesh.C04_decompose"
   ],
   "note": "End to end through Layout.__init__ and _exchange in the collective semantics; C04_decompose gives the send lists of GridND.decompose."
  },
  {
   "property": "C05",
   "status": "proved",
   "theorems": [
    "Pmesh.C05_adjoint"
   ],
   "note": "Scalar payload; a vector payload is one scalar per component (bincountv loops over components)."
  },
  {
   "property": "C06",
   "status": "partial",
   "theorems": [
    "Pmesh.C06_roundtrip",
    "Pmesh.C06_roundtrip_local",
    "Pmesh.C06_roundtrip_ufunc_partial",
    "Pmesh.C06_violated_ufunc",
    "Pmesh.C06_violated_ufunc_error"
   ],
   "note": "all, sum, mean, any, local proved for all layouts. The ufunc branch raises IndexError if the last particle has no copy and returns a foreign value for a particle without copies (negations proved); proved when the last particle has a copy."
  },
  {
   "property": "C07",
   "status": "partial",
   "theorems": [
    "Pmesh.C07_exchange_error",
    "Pmesh.C07_gather_error",
    "Pmesh.C07_exchange_ok",
    "Pmesh.C07_packed_error",
    "Pmesh.C07_violated_packed",
    "Pmesh.C07_violated_shape"
   ],
   "note": "Proved for exchange and gather of an array. With pack=True and several columns of different lengths on one rank, and with different trailing shapes, one rank raises alone and the others hang (negations proved)."
  },
  {
   "property": "C08",
   "status": "proved",
   "theorems": [
    "Pmesh.C08_default_assign"
   ],
   "note": "Default DomainAssign of GridND: round-robin style assignment."
  },
  {
   "property": "C09",
   "status": "proved",
   "theorems": [
    "Pmesh.C09_loadbalance",
    "Pmesh.C09_loadbalance_small",
    "Pmesh.C09_near_optimal"
   ],
   "note": "List-scheduling bound for loadbalance, and 4/3 - 1/(3n) times the load of any other assignment (tight example)."
  },
  {
   "property": "C10",
   "status": "proved",
   "theorems": [
    "Pmesh.C10_load",
    "Pmesh.C10_load_open"
   ],
   "note": "Load is the number of particles in each domain, periodic or not (without periodicity, positions beyond the ends count for the domains there)."
  },
  {
   "property": "C11",
   "status": "partial",
   "theorems": [
    "Pmesh.C11_at_most",
    "Pmesh.C11_at_least_partial",
    "Pmesh.C11_violated"
   ],
   "note": "Never more domains than ranks is proved for all inputs. At least one domain fails for small boxes (C11_violated) and is proved for sides and root at least 1."
  },
  {
   "property": "C12",
   "status": "partial",
   "theorems": [
    "Pmesh.C12_empty_domains_partial",
    "Pmesh.C12_violated",
    "Pmesh.C12_violated_out_of_bounds"
   ],
   "note": "The code looks the empty flag up by rank instead of by domain; proved for one domain per rank, negation proved in general."
  },
  {
   "property": "C13",
   "status": "partial",
   "theorems": [
    "Pmesh.C13_packed_partial",
    "Pmesh.C13_violated_empty"
   ],
   "note": "At least one array. Without arguments the packed branch raises IndexError instead of returning None."
  },
  {
   "property": "C14",
   "status": "partial",
   "theorems": [
    "Pmesh.C14_paint_partial",
    "Pmesh.C14_readout_partial",
    "Pmesh.C14_paint_cut",
    "Pmesh.C14_weight_finite",
    "Pmesh.C14_confined_nearest",
    "Pmesh.C14_confined_linear",
    "Pmesh.C14_confined_quadratic",
    "Pmesh.C14_confined_cubic",
    "Pmesh.C14_confined_tables",
    "Pmesh.C14_contiguous_distinct",
    "Pmesh.C14_violated_hsml",
    "Pmesh.C14_violated_wavelet",
    "Pmesh.C14_table_interpolates",
    "Pmesh.C14_wavelet_interpolates"
   ],
   "note": "Proved for every position, mass, dimension, period, local box, window size and derivative axes, for all untuned windows with a confined kernel (nearest, linear, quadratic, cubic, lanczos*, acg*) and for tuned windows when Faithful. The code violates the claim for tuned windows with hsml slightly below 1 (C14_violated_hsml) and for wavelet windows, which are cut off at the native support (C14_violated_wavelet; C14_paint_cut states what they do)."
  },
  {
   "property": "C15",
   "status": "proved",
   "theorems": [
    "Pmesh.C15_mass_conserved"
   ],
   "note": ""
  },
  {
   "property": "C16",
   "status": "partial",
   "theorems": [
    "Pmesh.C16_in_array",
    "Pmesh.C16_stencil_bounds",
    "Pmesh.C16_bytes_partial",
    "Pmesh.C16_violated_half"
   ],
   "note": "Elements: for all arrays. Bytes: for single and double precision; arrays of half precision pass the assertion and are written four bytes at a time, beyond their end (negation proved). Unbounded integers; int overflow of cell numbers is outside the model."
  },
  {
   "property": "C17",
   "status": "proved",
   "theorems": [
    "Pmesh.C17_append",
    "Pmesh.C17_perm",
    "Pmesh.C17_hold",
    "Pmesh.C17_linear",
    "Pmesh.C17_add_masses"
   ],
   "note": "Exact arithmetic."
  },
  {
   "property": "C18",
   "status": "proved",
   "theorems": [
    "Pmesh.C18_box",
    "Pmesh.C18_cells"
   ],
   "note": ""
  },
  {
   "property": "C19",
   "status": "proved",
   "theorems": [
    "Pmesh.C19_adjoint"
   ],
   "note": ""
  },
  {
   "property": "C20",
   "status": "partial",
   "theorems": [
    "Pmesh.C20_tuned_eq_generic_partial",
    "Pmesh.C20_violated_hsml",
    "Pmesh.C20_violated_pcs_gradient",
    "Pmesh.C20_violated_cic_gradient"
   ],
   "note": "The code violates the claim for hsml between (native-1)/native and 1, for the pcs gradient with scale other than 1, and for the cic gradient on grid points; proved in all other cases."
  },
  {
   "property": "C21",
   "status": "partial",
   "theorems": [
    "Pmesh.C21_kernel_tsc",
    "Pmesh.C21_kernel_pcs",
    "Pmesh.C21_kernel_cic",
    "Pmesh.C21_kernel_nnb",
    "Pmesh.C21_smooth_tsc",
    "Pmesh.C21_smooth_pcs",
    "Pmesh.C21_smooth_cic",
    "Pmesh.C21_smooth_nnb",
    "Pmesh.C21_readout_gradient_partial",
    "Pmesh.C21_paint_gradient_partial",
    "Pmesh.C21_pcs_gradient",
    "Pmesh.C21_violated_pcs",
    "Pmesh.C21_kernel_table",
    "Pmesh.C21_kernel_wavelet_partial",
    "Pmesh.C21_violated_wavelet"
   ],
   "note": "Kernels: proved for all reals. readout/paint with gradient=d are the derivatives in the position for every field, window size and dimension, except where the tuned code departs from its kernel: tuned pcs forgets the axis scale (C21_violated_pcs; C21_pcs_gradient gives the exact factor) and tuned cic exactly on grid points. Tabulated kernels: the gradient kernels are the derivatives between the nodes; those of the wavelets are not zero in the interval just before their table, where the kernel is (C21_violated_wavelet)."
  },
  {
   "property": "C22",
   "status": "proved",
   "theorems": [
    "Pmesh.C22_linear_exact"
   ],
   "note": ""
  },
  {
   "property": "C23",
   "status": "partial",
   "theorems": [
    "Pmesh.C23_paint_partial",
    "Pmesh.C23_violated_hsml",
    "Pmesh.C23_violated_scalar_mass",
    "Pmesh.C23_violated_halo",
    "Pmesh.C23_violated_empty_slabs",
    "Pmesh.C23_broadcast"
   ],
   "note": "Parallel paint = piece of serial paint, for any ranks, windows, gradient, hold. Partial: halo must not wrap around the box, at most one empty slab per axis, windows not larger than the support; each shown necessary by a witness."
  },
  {
   "property": "C24",
   "status": "partial",
   "theorems": [
    "Pmesh.C24_readout_partial",
    "Pmesh.C24_violated_halo",
    "Pmesh.C24_violated_hsml"
   ],
   "note": "Parallel readout = serial readout, same restrictions as C23; witnesses that the restrictions are needed: a layout with too small a smoothing, and an hsml the layout does not know of."
  },
  {
   "property": "C25",
   "status": "partial",
   "theorems": [
    "Pmesh.C25_paint",
    "Pmesh.C25_readout",
    "Pmesh.C25_readout_gradient",
    "Pmesh.C25_violated_gradient"
   ],
   "note": "Proved for every mesh, window, consistent layout (in particular the one decompose returns) or no layout, on any number of ranks, both tangents optional: paint_jvp/paint_vjp and readout_jvp/readout_vjp with gradient=None are adjoint, and readout/readout_vjp(out_pos=False) with any gradient direction. With a gradient direction readout_jvp is not adjoint to readout_vjp: it ignores the argument (C25_violated_gradient)."
  },
  {
   "property": "C26",
   "status": "partial",
   "theorems": [
    "Pmesh.C26_coords_partial",
    "Pmesh.C26_opposite_partial",
    "Pmesh.C26_nyquist",
    "Pmesh.C26_violated_odd",
    "Pmesh.C26_violated_one"
   ],
   "note": "Proved for every start, length, mesh size, box and index, except index N//2 of odd meshes. There the code is wrong: on 5 cells index 2 gets -3 instead of 2 (C26_violated_odd); on a mesh of one cell the zero mode gets the wavenumber -2 pi/L (C26_violated_one)."
  },
  {
   "property": "C27",
   "status": "proved",
   "theorems": [
    "Pmesh.C27_csetitem",
    "Pmesh.C27_cgetitem",
    "Pmesh.C27_csetitem_real"
   ],
   "note": "Any partition, Hermitian field, index in [-Nmesh, Nmesh), value, and part (whole, real, imaginary), compressed or full storage. The returned value is the same on all ranks and is what cgetitem reads; it is 0 for an index that is not stored because of the compression (the opposite mode is set then)."
  },
  {
   "property": "C28",
   "status": "partial",
   "theorems": [
    "Pmesh.C28_cnorm_partial",
    "Pmesh.C28_cdot_partial",
    "Pmesh.C28_violated_odd",
    "Pmesh.C28_violated_imag"
   ],
   "note": "cnorm and the real part of cdot equal the sums over the full spectrum for any partition, mesh with an even last axis (or full storage), metric and norm. Violated for an odd last axis (norm 4 instead of 6) and for the imaginary part of cdot."
  },
  {
   "property": "C29",
   "status": "proved",
   "theorems": [
    "Pmesh.C29_c2r_r2c",
    "Pmesh.C29_r2c_c2r",
    "Pmesh.C29_mean",
    "Pmesh.C29_complex"
   ],
   "note": "The FFT is the exact discrete Fourier transform over the complex numbers (contract of pfft); any number of axes, any sizes, full and compressed storage."
  },
  {
   "property": "C30",
   "status": "partial",
   "theorems": [
    "Pmesh.C30_c2r_partial",
    "Pmesh.C30_r2c_partial",
    "Pmesh.C30_violated_odd"
   ],
   "note": "Even last axis or full storage, real part of cdot; with an odd last axis cdot itself miscounts a plane (C28_violated_odd), and the vjp of c2r is wrong (C30_violated_odd)."
  },
  {
   "property": "C31",
   "status": "partial",
   "theorems": [
    "Pmesh.C31_modes_partial",
    "Pmesh.C31_any_ratio_partial",
    "Pmesh.C31_real_partial",
    "Pmesh.C31_violated_same",
    "Pmesh.C31_violated_ratio",
    "Pmesh.C31_violated_odd",
    "Pmesh.C31_violated_mean",
    "Pmesh.C31_violated_odd_fails",
    "Pmesh.C31_violated_five"
   ],
   "note": "Proved for even sizes on any tilings, any number of axes, refined, equal or at least halved along each axis. Violated: equal meshes lose the Nyquist modes, 8 to 6 cells loses a common mode, odd sizes lose modes or raise ValueError, the imaginary part of the mean of a complex mesh is lost. Every destination with an odd size other than 1 and 5 makes all ranks fail; with 5 one mode gets the value of another."
  },
  {
   "property": "C32",
   "status": "proved",
   "theorems": [
    "Pmesh.C32_apply"
   ],
   "note": "Pointwise func, at least two axes, any strides and any order argsort returns, in place or not."
  },
  {
   "property": "C33",
   "status": "proved",
   "theorems": [
    "Pmesh.C33_ravel",
    "Pmesh.C33_unravel",
    "Pmesh.C33_round_trip",
    "Pmesh.C33_unravel_length"
   ],
   "note": "Any tiling, any element type; mpsort by its contract."
  },
  {
   "property": "C34",
   "status": "proved",
   "theorems": [
    "Pmesh.C34_ids",
    "Pmesh.C34_cell",
    "Pmesh.C34_partition"
   ],
   "note": "Any mesh, any split; exact arithmetic."
  },
  {
   "property": "C35",
   "status": "partial",
   "theorems": [
    "Pmesh.C35_projection_partial",
    "Pmesh.C35_whole",
    "Pmesh.C35_violated_order",
    "Pmesh.C35_violated_shape"
   ],
   "note": "Every proper selection of axes in any order, and all axes in natural order. Violated when all axes are kept in another order: the array is not transposed (square mesh) or an exception is raised. Resampling through Nmesh is not modelled here."
  },
  {
   "property": "C36",
   "status": "partial",
   "theorems": [
    "Pmesh.C36_ctranspose_partial",
    "Pmesh.C36_violated_order"
   ],
   "note": "Any permutation, any split of both meshes. Partial: if slabs of the transposed mesh are empty, the ranks must be in C order (PlainRanks); otherwise violated (witness)."
  },
  {
   "property": "C37",
   "status": "partial",
   "theorems": [
    "Pmesh.C37_downsample_ranks_partial",
    "Pmesh.C37_downsample_total_partial",
    "Pmesh.C37_upsample_ranks_partial",
    "Pmesh.C37_upsample_constant_partial",
    "Pmesh.C37_violated_upsample_pcs"
   ],
   "note": "Rank independence, conservation of the sum or the density, and constants. Partial: halos must fit (HaloFits) and PlainRanks. Violated for upsample with a window wider than the hard coded smoothing 1.6 (pcs on two ranks)."
  },
  {
   "property": "C38",
   "status": "partial",
   "theorems": [
    "Pmesh.C38_partition_partial",
    "Pmesh.C38_violated_split"
   ],
   "note": "Any two local boxes have the same value in each mode they share, for every previous content of memory, so every stored mode is written; compressed storage or last axis not split. Violated for full fields split along the last axis: modes of negative last index are not written."
  },
  {
   "property": "C39",
   "status": "proved",
   "theorems": [
    "Pmesh.C39_hermitian",
    "Pmesh.C39_violated_odd"
   ],
   "note": "Mesh square in the first two axes, last axis even (covers even cubic meshes), compressed and full storage, modes on different ranks. C39_violated_odd: odd last axis with full storage."
  },
  {
   "property": "C40",
   "status": "proved",
   "theorems": [
    "Pmesh.C40_resolution"
   ],
   "note": "Any two even cubic meshes, any boxes, every mode number below both Nyquist frequencies."
  },
  {
   "property": "C41",
   "status": "partial",
   "theorems": [
    "Pmesh.C41_columns_partial",
    "Pmesh.C41_violated_odd",
    "Pmesh.C41_violated_equal",
    "Pmesh.C41_violated_oblong",
    "Pmesh.C41_violated_large"
   ],
   "note": "Bijection between columns and the first N^2 draws for even square meshes. Violated for every odd size (columns (N-1)/2 get seed 0, so their modes are equal), for meshes that are not square, and for meshes of more than 2^31 columns (two columns share a 31 bit seed and have equal modes, whatever the generator)."
  },
  {
   "property": "C42",
   "status": "partial",
   "theorems": [
    "Pmesh.C42_mean_partial",
    "Pmesh.C42_unitary_partial",
    "Pmesh.C42_violated_single"
   ],
   "note": "Exact arithmetic; no axis of one cell (violated there: the mean is not set); full fields not split along the last axis. Three axes; fewer axes are C67."
  },
  {
   "property": "C43",
   "status": "proved",
   "theorems": [
    "Pmesh.C43_range",
    "Pmesh.C43_exact",
    "Pmesh.C43_nonzero",
    "Pmesh.C43_sample"
   ],
   "note": "ranlxd1 as a state machine over exact rationals with an arbitrary rounding function after every operation that keeps 53-bit values. Also: the values do not depend on the rounding, of 23 consecutive numbers one is not zero, and SAMPLE returns an amplitude in (0,1)."
  },
  {
   "property": "C44",
   "status": "proved",
   "theorems": [
    "Pmesh.C44_recurrence",
    "Pmesh.C44_luxury"
   ],
   "note": "Number n is word 202 (n/12 + 1) + n % 12 of the subtract-with-borrow sequence with lags 5 and 12 from the seed's bits, for every seed and n. C44_luxury: same for every luxury of at least 11."
  },
  {
   "property": "C45",
   "status": "proved",
   "theorems": [
    "Pmesh.C45_distinct",
    "Pmesh.C45_bijection",
    "Pmesh.C45_compressed"
   ],
   "note": "Every number of axes up to 32 and every mesh; the bijection also covers odd cubic meshes. The bit counting arithmetic of get_nbits is modelled step by step."
  },
  {
   "property": "C46",
   "status": "partial",
   "theorems": [
    "Pmesh.C46_inside_out",
    "Pmesh.C46_resolution_partial",
    "Pmesh.C46_violated_nyquist",
    "Pmesh.C46_violated_odd"
   ],
   "note": "Inside-out for modes with |x| <= N/2. Violated for the frequency -(N+1)/2 that pmesh uses on odd meshes. Resolution independence holds below the Nyquist mode; the Nyquist mode itself has another index on a finer mesh."
  },
  {
   "property": "C47",
   "status": "partial",
   "theorems": [
    "Pmesh.C47_maxlength_partial",
    "Pmesh.C47_zero_length",
    "Pmesh.C47_outside",
    "Pmesh.C47_outside_compressed",
    "Pmesh.C47_violated_zero"
   ],
   "note": "Every mode, mesh and positive maxlength. With maxlength=0 the zero mode still has index 0."
  },
  {
   "property": "C48",
   "status": "partial",
   "theorems": [
    "Pmesh.C48_agree_partial",
    "Pmesh.C48_all_or_none_partial",
    "Pmesh.C48_violated_handles"
   ],
   "note": "Every interleaving of constructions, collections and opening/closing of communicators on any number of ranks and communicators; each rank has at most one live object per communicator. Violated without that: a rank with two objects for one communicator can combine plans of different constructions."
  },
  {
   "property": "C49",
   "status": "proved",
   "theorems": [
    "Pmesh.C49_order",
    "Pmesh.C49_exclusive",
    "Pmesh.C49_progress",
    "Pmesh.C49_finite",
    "Pmesh.C49_barriers"
   ],
   "note": "All schedules of any number of ranks, with bodies of any length; the bodies make no collective calls."
  },
  {
   "property": "C50",
   "status": "partial",
   "theorems": [
    "Pmesh.C50_sync_result_partial",
    "Pmesh.C50_sync_never_stuck_partial",
    "Pmesh.C50_sync_terminates",
    "Pmesh.C50_images",
    "Pmesh.C50_pull_holds_partial",
    "Pmesh.C50_push_stored_partial",
    "Pmesh.C50_sync_untouched_partial",
    "Pmesh.C50_violated_cross",
    "Pmesh.C50_violated_deadlock",
    "Pmesh.C50_violated_race"
   ],
   "note": "For any number of ranks, operations and every schedule of ranks and messages: if no rank pulls from a rank that pushes to it, and no pushed view is overwritten by a push, sync never gets stuck, ends, and leaves pulls and pushes as specified. Without the first condition data is swapped in every schedule, or sync hangs; without the second the result depends on the schedule, as in the test at the end of coarray.py (all proved with witnesses)."
  },
  {
   "property": "C51",
   "status": "partial",
   "theorems": [
    "Pmesh.C51_numba_paint_partial",
    "Pmesh.C51_numba_readout",
    "Pmesh.C51_numba_returns",
    "Pmesh.C51_numpy_paint",
    "Pmesh.C51_numpy_readout",
    "Pmesh.C51_numpy_returns",
    "Pmesh.C51_violated_noncontiguous",
    "Pmesh.C51_violated_zero_period"
   ],
   "note": "Both versions (numpy, numba), any dimension, chunk size, mode, transform, masses. Violated: the numba paint writes into a copy of a mesh that is not C-contiguous, so nothing is painted; a zero entry of period sends everything to cell 0 in the numpy version."
  },
  {
   "property": "C52",
   "status": "partial",
   "theorems": [
    "Pmesh.C52_shifted_partial",
    "Pmesh.C52_violated",
    "Pmesh.C52_violated_readout"
   ],
   "note": "Violated: tsc.paint deposits every particle one cell too low, and tsc.readout raises NameError. Proved: apart from that shift it paints exactly what the tsc window paints, in any dimension, for any particles, on a contiguous mesh, including half-integer positions."
  },
  {
   "property": "C53",
   "status": "partial",
   "theorems": [
    "Pmesh.C53_residual",
    "Pmesh.C53_assign",
    "Pmesh.C53_add",
    "Pmesh.C53_multiply",
    "Pmesh.C53_to_scalar",
    "Pmesh.C53_assign_component_partial",
    "Pmesh.C53_transfer",
    "Pmesh.C53_decompress_partial",
    "Pmesh.C53_paint_factor",
    "Pmesh.C53_paint_partial",
    "Pmesh.C53_readout",
    "Pmesh.C30_c2r_partial",
    "Pmesh.C30_r2c_partial",
    "Pmesh.C53_lowpass_identity",
    "Pmesh.C53_violated_paint",
    "Pmesh.C53_violated_assign_component",
    "Pmesh.C53_violated_multiply",
    "Pmesh.C53_violated_decompress",
    "Pmesh.C53_violated_lowpass",
    "Pmesh.C53_lowpass_band_partial",
    "Pmesh.C53_violated_lowpass_odd"
   ],
   "note": "Proved for residual, assign, add, multiply (real), to_scalar, transfer and readout, on any number of ranks, with the jvp shown to be the change of the operator for the elementwise ones. Violations proved: the jvp of paint lacks the factor Nmesh.prod()/N of the operator and the vjp (partial: N = Nmesh.prod()); assign_component passes the cotangent on to the overwritten component (partial: zero tangent there); multiply of complex fields lacks the conjugate; decompress matches with the inner product over independent modes but not with cdot; lowpass discards the result of its jvp and vjp, which are identities. c2r and r2c are C30. The engine of the package abopt is not modelled. The operator lowpass itself keeps exactly the modes within Neff//2 on even meshes; on odd ones it removes the highest frequency (violation proved)."
  },
  {
   "property": "C54",
   "status": "proved",
   "theorems": [
    "Pmesh.C54_csum"
   ],
   "note": "Any split, any order of the axes on each rank; exact arithmetic."
  },
  {
   "property": "C55",
   "status": "partial",
   "theorems": [
    "Pmesh.C55_fwindow",
    "Pmesh.C55_bounds",
    "Pmesh.C55_compensated",
    "Pmesh.C55_modes",
    "Pmesh.C55_violated_resized",
    "Pmesh.C55_tabulated"
   ],
   "note": "For nearest, linear, quadratic, cubic, nnb, cic, tsc, pcs at every support: get_fwindow is the Fourier transform of the kernel (to 1e-21, exactly outside the Taylor range of sinc_unnormed), the compensated spectrum averaged over grid positions is that of the point particles, and for native size no division by zero. Fails for windows enlarged to twice the native size: the transform is zero at Nyquist. The tables of lanczos, acg and wavelets have no closed form (the code returns 1) : compensation leaves the field as it is."
  },
  {
   "property": "C56",
   "status": "partial",
   "theorems": [
    "Pmesh.C56_decompose",
    "Pmesh.C56_decompose_open",
    "Pmesh.C56_partition",
    "Pmesh.C56_isprimary_partial",
    "Pmesh.C56_load_partial",
    "Pmesh.C56_load_hang",
    "Pmesh.C56_exact",
    "Pmesh.C56_violated_isprimary",
    "Pmesh.C56_violated_load",
    "Pmesh.C56_violated_empty_first"
   ],
   "note": "decompose is robust for any rounding: delivery holds up to three rounding errors, and without smoothing there is exactly one rank. isprimary and load fail for positions just below 0, which wrap to the box size: isprimary is false on all ranks, load raises and hangs the other ranks. If the first domain is empty such a position is sent to two ranks."
  },
  {
   "property": "C57",
   "status": "partial",
   "theorems": [
    "Pmesh.C57_decompose_partial",
    "Pmesh.C57_load_partial",
    "Pmesh.C57_totalsize_partial",
    "Pmesh.C57_violated_decompose",
    "Pmesh.C57_violated_load",
    "Pmesh.C57_violated_totalsize"
   ],
   "note": "Holds up to 16384 domains per periodic axis (32767 open) for decompose, 32767 for load, and 2^31 - 1 copies. Beyond that nothing checks: with 32767 domains a particle near the end of the box is sent to no rank; with 32769 load raises; with 2^31 - 1 particles that reach two ranks the array of indices gets length -2."
  },
  {
   "property": "C58",
   "status": "partial",
   "theorems": [
    "Pmesh.C58_distinct_partial",
    "Pmesh.C58_violated",
    "Pmesh.C58_violated_noise"
   ],
   "note": "Seeds 1 to 2^31 differ among the first 24 numbers (the state is a number modulo 2^576 - 2^240 + 1, steps are divisions by 2^48; the unseen borrow is excluded by two blocks). Violated beyond: seeds s and 2^32 - s give the same generator and the same white noise field, as do 0 and 1."
  },
  {
   "property": "C59",
   "status": "partial",
   "theorems": [
    "Pmesh.C59_r2c",
    "Pmesh.C59_c2r",
    "Pmesh.C59_cast",
    "Pmesh.C59_roundtrip",
    "Pmesh.C59_resample_partial",
    "Pmesh.C59_violated_resample_untransposed",
    "Pmesh.C59_violated_resample_shared"
   ],
   "note": "r2c, c2r and cast: proved for every sharing of buffers. resample: proved for real and transposed results that do not share memory with a source of another class on a mesh of the same size. resample into an untransposed field returns permuted modes (C59_violated_resample_untransposed); resample into a view of another class of the source's own memory transforms twice (C59_violated_resample_shared)."
  },
  {
   "property": "C60",
   "status": "partial",
   "theorems": [
    "Pmesh.C60_partial",
    "Pmesh.C60_inplace_once",
    "Pmesh.C60_violated_alias",
    "Pmesh.C60_violated_complex"
   ],
   "note": "Proved by simulation for all programs that do not bind two names to one field or have no in-place statements, with real numbers on real fields. Violated otherwise: a += 1 changes the field but binds a to a copy, so a second a += 1 is not seen under another name of the field; a real field times an imaginary number silently loses the imaginary part."
  },
  {
   "property": "C61",
   "status": "partial",
   "theorems": [
    "Pmesh.C61_paint_partial",
    "Pmesh.C61_readout_partial",
    "Pmesh.C61_violated_default"
   ],
   "note": "Proved under the restrictions of C23 on the halo and on empty slabs. The default smoothing leaves no room for motion: C61_violated_default."
  },
  {
   "property": "C62",
   "status": "partial",
   "theorems": [
    "Pmesh.C62_paint",
    "Pmesh.C62_readout_partial",
    "Pmesh.C62_violated_hsml"
   ],
   "note": "Sign of paint: proved for all smoothing lengths. Range of readout: proved for the native size of the window; with hsml 3/2 the constant 1 is read as 10/9 (C62_violated_hsml)."
  },
  {
   "property": "C63",
   "status": "partial",
   "theorems": [
    "Pmesh.C63_steps",
    "Pmesh.C63_integral_partial",
    "Pmesh.C63_violated_hsml",
    "Pmesh.C63_violated_units",
    "Pmesh.C63_violated_vmax",
    "Pmesh.C63_violated_empty"
   ],
   "note": "The values that lic integrates are proved to be the line sums for any number of ranks when the largest vector occurs on every rank and cells are not smaller than the unit of length. The field that lic returns is wrong: the values are passed to paint as smoothing lengths (C63_violated_hsml). Also violated: step in box units while the halo assumes pixels (C63_violated_units), maximum taken per rank (C63_violated_vmax), deadlock on an empty rank (C63_violated_empty)."
  },
  {
   "property": "C64",
   "status": "partial",
   "theorems": [
    "Pmesh.C64_transfer_partial",
    "Pmesh.C64_inspect_partial",
    "Pmesh.C64_violated_laplace",
    "Pmesh.C64_violated_laplace_empty",
    "Pmesh.C64_violated_trilinear",
    "Pmesh.C64_violated_powerspectrum",
    "Pmesh.C64_violated_inspect",
    "Pmesh.C64_violated_odd"
   ],
   "note": "Proved for chains of NormalizeDC, RemoveDC, SuperLanzcos, Gaussian, Constant and Poisson on even meshes whose zero mode does not vanish when it is divided by. Laplace multiplies every row with the factor of the last row and raises on ranks without rows; Trilinear and PowerSpectrum always raise; Inspect takes local indices; on odd meshes the frequencies are wrong."
  },
  {
   "property": "C65",
   "status": "partial",
   "theorems": [
    "Pmesh.C65_paint_partial",
    "Pmesh.C65_readout_partial",
    "Pmesh.C65_violated_tsc",
    "Pmesh.C65_violated_order",
    "Pmesh.C65_violated_name"
   ],
   "note": "Proved for the cic brush, slabs in C order of the ranks, C-contiguous canvas and slabs for which the halo does not wrap around. With the tsc brush mass is lost at the boundaries of slabs, with slabs in another order particles are lost, and names of brushes in upper case raise."
  },
  {
   "property": "C66",
   "status": "partial",
   "theorems": [
    "Pmesh.C66_transfer_partial",
    "Pmesh.C66_violated_gradient",
    "Pmesh.C66_violated_odd"
   ],
   "note": "Proved for even meshes and fields or functions that respect the Nyquist planes. Violated by a derivative at the Nyquist frequency of its axis, where both modes of an opposite pair get the same imaginary factor, and on odd meshes, where the mask zeroes one mode of a pair."
  },
  {
   "property": "C67",
   "status": "partial",
   "theorems": [
    "Pmesh.C67_noise_partial",
    "Pmesh.C67_violated_single"
   ],
   "note": "No axis of a single point: there the wavenumber is not zero and the mean is not set. The random numbers of numpy are an arbitrary array that is the same on all ranks."
  },
  {
   "property": "C68",
   "status": "partial",
   "theorems": [
    "Pmesh.C68_safe",
    "Pmesh.C68_exact",
    "Pmesh.C68_nearest_partial",
    "Pmesh.C68_violated_lost"
   ],
   "note": "Nearest window, positions inside the box, mesh sizes below 2^(p-4). Outside of the box violated: float64 particle at -1/2-2^-53 cells is written by no rank. The other windows are C69; C68_safe covers all tuned windows. Compilers that contract operations are not modelled."
  },
  {
   "property": "C69",
   "status": "proved",
   "theorems": [
    "Pmesh.C69_particle",
    "Pmesh.C69_field"
   ],
   "note": "Up to three axes, cic, tsc and pcs. e is B*N*eps, B the number of boxes that a particle may be away from the origin; slabs must leave room for the window (HaloFits), as in C20. C69_field: all ranks, sums in the type of the field. C69_particle also bounds the weights of readout; the sum of a readout is not covered."
  },
  {
   "property": "C70",
   "status": "partial",
   "theorems": [
    "Pmesh.C70_paint",
    "Pmesh.C70_returns",
    "Pmesh.C70_linear",
    "Pmesh.C70_cic",
    "Pmesh.C70_total",
    "Pmesh.C70_mass_partial",
    "Pmesh.C70_support",
    "Pmesh.C70_linear_sums",
    "Pmesh.C70_cubic_sums",
    "Pmesh.C70_kaiser_sums",
    "Pmesh.C70_cubic_mass",
    "Pmesh.C70_violated_mass"
   ],
   "note": "Any window. Mass is kept on one axis or if the integral is 1 (linear, cubic for every alpha). Otherwise violated: paint divides by the integral once instead of once per axis, so kaiser(1, 0) doubles the mass of every particle on a mesh of two axes."
  },
  {
   "property": "C71",
   "status": "proved",
   "theorems": [
    "Pmesh.C71_third_law",
    "Pmesh.C71_reciprocity",
    "Pmesh.C71_momentum",
    "Pmesh.C71_no_self_force",
    "Pmesh.C71_energy"
   ],
   "note": "For all meshes, ranks, layouts (also without one), windows and transfer functions, in exact arithmetic. The transforms are those of the FFT contract on the global array."
  },
  {
   "property": "C72",
   "status": "partial",
   "theorems": [
    "Pmesh.C72_paint",
    "Pmesh.C72_readout",
    "Pmesh.C72_paint_gradient",
    "Pmesh.C72_readout_gradient",
    "Pmesh.C72_abopt_paint",
    "Pmesh.C72_abopt_paint_partial",
    "Pmesh.C72_violated_abopt_paint",
    "Pmesh.C72_abopt_readout",
    "Pmesh.C72_smooth_tsc",
    "Pmesh.C72_smooth_pcs",
    "Pmesh.C72_smooth_pcs_unit",
    "Pmesh.C72_smooth_cic"
   ],
   "note": "Proved for paint, readout and their jvp and vjp on all ranks and layouts, at all positions for tsc and generic pcs, off the grid points for cic. Partial: the code violates it for the jvp of the paint operator of abopt, which lacks the factor Nmesh.prod()/N (C72_violated_abopt_paint), and for tuned pcs with cells of other than unit size (C21_violated_pcs)."
  },
  {
   "property": "C73",
   "status": "proved",
   "theorems": [
    "Pmesh.C73_readout"
   ],
   "note": "The fraction is 2^20 (k+1) e + 512 k ((1+eps)^(65+k) - 1) for a particle sent to k ranks, e a bound on eps times mesh size times distance in boxes."
  },
  {
   "property": "C74",
   "status": "partial",
   "theorems": [
    "Pmesh.C74_translation_partial",
    "Pmesh.C74_mean_partial",
    "Pmesh.C74_uniform_grid_partial"
   ],
   "note": "Partial for the restrictions of C23 only (halo not wider than the box, no empty slabs in odd rank order), without which the code paints wrongly."
  },
  {
   "property": "C75",
   "status": "partial",
   "theorems": [
    "Pmesh.C75_filter_partial",
    "Pmesh.C75_gradient_partial",
    "Pmesh.C75_poisson_partial",
    "Pmesh.C75_violated_gradient_odd"
   ],
   "note": "Proved for waves with fewer than Nmesh//2 periods along each axis, for all even meshes the full statement. Partial: on meshes of odd size the code gives the frequency Nmesh//2 the wavenumber -(Nmesh//2+1); proved that i*k then gives -1/2 times the derivative of cos(2 pi x/L) on 3x3 points. Functions are arrays of at least two axes (apply raises in one dimension)."
  },
  {
   "property": "C76",
   "status": "partial",
   "theorems": [
    "Pmesh.C76_rank_independent_partial"
   ],
   "note": "Partial for the restrictions of C23 only (halo not wider than the box, no empty slabs in odd rank order), without which the code paints wrongly. Exact arithmetic: rounding depends on the order of summation, see C60 and C73."
  },
  {
   "property": "C77",
   "status": "partial",
   "theorems": [
    "Pmesh.C77_cdot_partial",
    "Pmesh.C77_cnorm_partial",
    "Pmesh.C77_convolution",
    "Pmesh.C77_correlation",
    "Pmesh.C77_cdot_vjp",
    "Pmesh.C77_violated_odd"
   ],
   "note": "Convolution, correlation and gradient hold for all meshes. The inner product and the norm are proved for compressed axes of even size (or full storage); for odd sizes the code counts the plane of the highest frequency once, witness C77_violated_odd."
  },
  {
   "property": "C78",
   "status": "proved",
   "theorems": [
    "Pmesh.C78_refines",
    "Pmesh.C78_push_pop",
    "Pmesh.C78_force_loop",
    "Pmesh.C78_pop_empty",
    "Pmesh.C78_violated_no_push",
    "Pmesh.C78_violated_pop"
   ],
   "note": "The two violated theorems show that the condition on the order of calls is needed: the real field is lost with pop, the complex one with c2r."
  },
  {
   "property": "C79",
   "status": "proved",
   "theorems": [
    "Pmesh.C79_energy_gradient"
   ],
   "note": "For every real transfer function, window with a derivative at the particles, any number of ranks and layout; the particles move on straight lines through the points where the gradient is taken. Exact arithmetic, contract of pfft."
  },
  {
   "property": "C80",
   "status": "partial",
   "theorems": [
    "Pmesh.C80_reshape",
    "Pmesh.C80_reshape_nothing_partial",
    "Pmesh.C80_reshape_twice",
    "Pmesh.C80_resize_back",
    "Pmesh.C80_respawn",
    "Pmesh.C80_violated_plan",
    "Pmesh.C80_violated_dimension_back",
    "Pmesh.C80_violated_one_axis"
   ],
   "note": "Cells, box, communicator, process mesh, type and window are kept or changed as asked, with ValueError exactly as documented. Violated: plan_method is dropped, going to fewer axes and back fails, and no mesh with a process mesh can be reshaped to one axis."
  },
  {
   "property": "C81",
   "status": "partial",
   "theorems": [
    "Pmesh.C81_axes_partial",
    "Pmesh.C81_mirror_partial",
    "Pmesh.C81_units_partial",
    "Pmesh.C81_even_windows",
    "Pmesh.C81_violated_nearest"
   ],
   "note": "Exchange of axes and units: all windows. Mirror images: all confined even windows, among them cic, tsc, pcs of any size; violated for nnb half way between two cells (witness). Restrictions of C23 on the decomposition; exact arithmetic, contract of pfft."
  },
  {
   "property": "C82",
   "status": "partial",
   "theorems": [
    "Pmesh.C82_projection_partial",
    "Pmesh.C82_readout_partial",
    "Pmesh.C82_total_partial",
    "Pmesh.C82_violated_size"
   ],
   "note": "Windows nnb, cic, tsc, pcs of native size; violated for other sizes, whose weights do not add up to one (witness). Restrictions of C23 on the decomposition and of C35 on preview."
  },
  {
   "property": "C83",
   "status": "partial",
   "theorems": [
    "Pmesh.C83_noise_partial"
   ],
   "note": "First two axes equal, last axis even (otherwise C39 is violated), no axis of a single point (C42), full fields not split along the last axis (C38)."
  },
  {
   "property": "C84",
   "status": "partial",
   "theorems": [
    "Pmesh.C84_noise_resample_partial"
   ],
   "note": "Even cubic meshes, refined, equal, or coarsened at least by two: restrictions of C31 and C40; other ratios violate C31."
  },
  {
   "property": "C85",
   "status": "partial",
   "theorems": [
    "Pmesh.C85_simulation_partial",
    "Pmesh.C85_seed_to_final_partial"
   ],
   "note": "Restrictions of C23 on the decomposition (its witnesses apply); noise on three axes as C38/C42; both runs use the same storage of modes; contract of pfft; exact arithmetic."
  },
  {
   "property": "C86",
   "status": "partial",
   "theorems": [
    "Pmesh.C86_momentum_partial",
    "Pmesh.C86_equilibrium_partial"
   ],
   "note": "Restrictions of C23 on the decomposition; contract of pfft; exact arithmetic."
  },
  {
   "property": "C87",
   "status": "partial",
   "theorems": [
    "Pmesh.C87_ranks_partial",
    "Pmesh.C87_momentum_partial",
    "Pmesh.C87_clocks",
    "Pmesh.C87_totals",
    "Pmesh.C87_odd",
    "Pmesh.C87_reversible_partial",
    "Pmesh.C87_simulate_partial"
   ],
   "note": "proved for the three schemes, any factors and any number of time steps, on any number of ranks; partial: the restrictions of C23 on the decomposition, and for the seed those of C38/C42. Exact arithmetic; cosmology functions and quad are parameters or exact integrals"
  },
  {
   "property": "C88",
   "status": "partial",
   "theorems": [
    "Pmesh.C88_scheme_partial",
    "Pmesh.C88_violated_stationary",
    "Pmesh.C88_violated_two_times"
   ],
   "note": "proved: the recurrence the solver satisfies in every mode, for any number of steps and ranks, and that the result does not depend on the ranks. The recurrence lacks the factor 2 of the documented one (violated: a stationary uniform field changes to 2 dt^2/(4+dt^2) of its value in one step), and a run with two times raises (violated). monitor and main are not modelled"
  },
  {
   "property": "C89",
   "status": "proved",
   "theorems": [
    "Pmesh.C89_copies",
    "Pmesh.C89_cost",
    "Pmesh.C89_cost_decompose"
   ],
   "note": "cost proved for all layouts, and in terms of the particles for layouts from decompose; the bound for all grids whose domains have positive width, under the conditions of C01 (SmoothingFits, FlagsAgree), without which decompose does not deliver as documented"
  },
  {
   "property": "C90",
   "status": "partial",
   "theorems": [
    "Pmesh.C90_axes_partial",
    "Pmesh.C90_mirror_partial",
    "Pmesh.C90_units_partial",
    "Pmesh.C90_storage_partial",
    "Pmesh.C90_shift_partial"
   ],
   "note": "complete on the model under the restrictions of C23 (a decomposition that covers the window, plain rank order); the mirror image additionally needs a window that is even and vanishes outside its support (all but the nearest-cell window, C81)"
  },
  {
   "property": "C91",
   "status": "proved",
   "theorems": [
    "Pmesh.C91_factors",
    "Pmesh.C91_order",
    "Pmesh.C91_growing"
   ],
   "note": "the schemes as lists of statements of the model, run with an exact force function; quad as the exact integral; order for class Quinn, for one step; class FastPM: exact growing mode"
  },
  {
   "property": "C92",
   "status": "partial",
   "theorems": [
    "Pmesh.C92_force_partial",
    "Pmesh.C92_potential",
    "Pmesh.C92_displacement",
    "Pmesh.C92_spectrum"
   ],
   "note": "complete on the model under the restrictions of C23 (decomposition covers the window, plain rank order)"
  },
  {
   "property": "C93",
   "status": "partial",
   "theorems": [
    "Pmesh.C93_volume_partial",
    "Pmesh.C93_symplectic",
    "Pmesh.C93_violated_symplectic"
   ],
   "note": "volume: complete on the model under the restrictions of C23; symplectic form: for forces with a symmetric derivative. The force of the mesh is not such a force: with two particles on a line of four cells the derivative of a step of symp1 does not keep the form, for any factors"
  },
  {
   "property": "C94",
   "status": "partial",
   "theorems": [
    "Pmesh.C94_inner",
    "Pmesh.C94_cdot_partial",
    "Pmesh.C94_setitem_partial",
    "Pmesh.C94_readout_partial",
    "Pmesh.C94_paint",
    "Pmesh.C94_violated_cdot",
    "Pmesh.C94_violated_setitem",
    "Pmesh.C94_violated_readout"
   ],
   "note": "inner products of spectra hold in full; the code violates the rest: cdot of complex meshes does not conjugate (norm of i is -1), csetitem also overwrites the opposite mode and drops the imaginary part of self-opposite modes, readout and paint see only the real part. The partial theorems say what holds instead"
  },
  {
   "property": "C95",
   "status": "partial",
   "theorems": [
    "Pmesh.C95_verdict",
    "Pmesh.C95_accepts",
    "Pmesh.C95_accepts_quadratic",
    "Pmesh.C95_rejects",
    "Pmesh.C95_violated_rtol"
   ],
   "note": "verdict, acceptance of right gradients and rejection of wrong ones hold in full for the tolerance the code uses, which is 10000 rtol for the central difference; hence for rtol >= 1e-4 a zero gradient is accepted for every function"
  },
  {
   "property": "C96",
   "status": "partial",
   "theorems": [
    "Pmesh.C96_value",
    "Pmesh.C96_violated_exception"
   ],
   "note": "the value reaches all ranks; if func raises on rank 0 of several ranks the others wait forever"
  },
  {
   "property": "C97",
   "status": "partial",
   "theorems": [
    "Pmesh.C97_vectors_partial",
    "Pmesh.C97_violated_positions",
    "Pmesh.C97_violated_square",
    "Pmesh.C97_mixed",
    "Pmesh.C97_assertion"
   ],
   "note": "complete for arrays with one number for each particle. For arrays of positions the code multiplies matrices: ValueError on all ranks, a deadlock if only some ranks have as many particles as dimensions, and a matrix instead of a number if all have"
  },
  {
   "property": "C98",
   "status": "partial",
   "theorems": [
    "Pmesh.C98_cdot_partial",
    "Pmesh.C98_type",
    "Pmesh.C98_violated_array",
    "Pmesh.C98_violated_value",
    "Pmesh.C98_violated_deadlock",
    "Pmesh.C98_violated_broadcast"
   ],
   "note": "complete when both fields are split over the ranks alike, and for operands of another class. An array of the right shape always raises TypeError (all() of a bool). Fields of two meshes with different np are multiplied piece by piece with numpy broadcasting: the result can be wrong on all ranks (16 instead of 8) or one rank raises and the others hang"
  },
  {
   "property": "C99",
   "status": "partial",
   "theorems": [
    "Pmesh.C99_motion",
    "Pmesh.C99_rate_partial",
    "Pmesh.C99_converges_partial",
    "Pmesh.C99_windows"
   ],
   "note": "for windows with a Lipschitz kernel that vanishes outside (cic, tsc, pcs; not nearest); partial only because of the restrictions of C23 on the decomposition. Exact arithmetic; quad is the integral"
  },
  {
   "property": "C100",
   "status": "partial",
   "theorems": [
    "Pmesh.C100_repeats_partial",
    "Pmesh.C100_axis_partial",
    "Pmesh.C100_homogeneous_partial",
    "Pmesh.C100_grid_partial",
    "Pmesh.C100_places"
   ],
   "note": "proved for all schemes, factors, times, windows, meshes and ranks; partial: the restrictions of C23 on the decomposition (halo covers the window, plain rank order), whose witnesses apply. No force along an axis: for particles that repeat themselves after one or two cells of the mesh of the forces (boost 1 or 2, the default); for larger boost only the repetition and the homogeneous case. Exact arithmetic."
  },
  {
   "property": "C101",
   "status": "partial",
   "theorems": [
    "Pmesh.C101_exchange",
    "Pmesh.C101_exchange_partial",
    "Pmesh.C101_violated_integers",
    "Pmesh.C101_violated_ids",
    "Pmesh.C101_gather_partial",
    "Pmesh.C101_sum_partial",
    "Pmesh.C101_violated_sum",
    "Pmesh.C101_violated_mean",
    "Pmesh.C101_violated_grid_type",
    "Pmesh.C101_grid_partial",
    "Pmesh.C101_violated_grid_f2"
   ],
   "note": "The code converts everything to the type of rank 0 and adds up in double precision, so the property fails for mixed types and for integers above 2^53 (negations proved); it holds where all numbers are numbers of the type of rank 0. The type of the uniform grid is always f8 (negation of the documented type proved)."
  },
  {
   "property": "C102",
   "status": "partial",
   "theorems": [
    "Pmesh.C102_ranks",
    "Pmesh.C102_accuracy_partial",
    "Pmesh.C102_order",
    "Pmesh.C102_opposite_partial",
    "Pmesh.C102_filter_ranks",
    "Pmesh.C102_hermitian_partial",
    "Pmesh.C102_violated_odd"
   ],
   "note": "Independence of the ranks and order hold for all meshes; accuracy and antisymmetry for even sizes (or away from the index N//2). On odd meshes the index N//2 gets the wrong wavenumber (C26), and a filter by |k| makes a real field complex (negation proved)."
  },
  {
   "property": "C103",
   "status": "partial",
   "theorems": [
    "Pmesh.C103_independent_partial",
    "Pmesh.C103_law_partial",
    "Pmesh.C103_power_partial",
    "Pmesh.C103_unitary_partial",
    "Pmesh.C103_violated_selfopposite"
   ],
   "note": "For a generator whose numbers are real, independent and uniform, on even meshes square in the first two axes. Modes that are their own opposite are real with variance 1/2: expected power 1/2 instead of 1 (negation proved). The real generator ranlxd1 and rounding are not covered."
  },
  {
   "property": "C104",
   "status": "partial",
   "theorems": [
    "Pmesh.C104_readout_partial",
    "Pmesh.C104_nearest_partial",
    "Pmesh.C104_paint_partial",
    "Pmesh.C104_wave_partial"
   ],
   "note": "Error bounds for readout and paint with decompose on any number of ranks, any dimension, in exact arithmetic and for the native size of the window. Partial because of the restrictions of C23 and C24 on the decomposition (plain ranks, halo fits)."
  },
  {
   "property": "C105",
   "status": "proved",
   "theorems": [
    "Pmesh.C105_csum",
    "Pmesh.C105_error",
    "Pmesh.C105_exact",
    "Pmesh.C105_cdot",
    "Pmesh.C105_cdot_error",
    "Pmesh.C105_cnorm",
    "Pmesh.C105_cgetitem",
    "Pmesh.C105_violated_ranks"
   ],
   "note": "For every order of summation of numpy and MPI; round to nearest at p digits without overflow and underflow. C105_violated_ranks shows that the rounded sum itself does depend on the split over the ranks."
  },
  {
   "property": "C106",
   "status": "proved",
   "theorems": [
    "Pmesh.C106_mass",
    "Pmesh.C106_mass_wavelet",
    "Pmesh.C106_constant",
    "Pmesh.C106_constant_wavelet",
    "Pmesh.C106_centre",
    "Pmesh.C106_violated_acg",
    "Pmesh.C106_violated_centre"
   ],
   "note": "For the native size of the windows and in exact arithmetic; decimal constants stand for themselves. The two violation theorems record that acg2 loses more than a fifth of the mass of a particle on a grid point and that db20 puts the mass more than four cells away."
  },
  {
   "property": "C107",
   "status": "partial",
   "theorems": [
    "Pmesh.C107_first_order_partial",
    "Pmesh.C107_second_order_partial",
    "Pmesh.C107_wave_partial",
    "Pmesh.C107_plain_partial",
    "Pmesh.C107_pcs_partial",
    "Pmesh.C107_violated_pcs"
   ],
   "note": "Error bounds for readout(gradient=d) with decompose on any number of ranks, in exact arithmetic: for the tuned windows cic and tsc of native size in one to three dimensions, and for the plain windows quadratic and cubic in any number of dimensions. Partial because the tuned pcs window reads the cell size times the derivative (C107_violated_pcs), and because of the restrictions of C24 on the decomposition (plain ranks, halo fits)."
  },
  {
   "property": "C108",
   "status": "partial",
   "theorems": [
    "Pmesh.C108_gaussian_partial",
    "Pmesh.C108_covariance_partial",
    "Pmesh.C108_mean_partial",
    "Pmesh.C108_homogeneous_partial",
    "Pmesh.C108_violated_variance"
   ],
   "note": "For ideal generators and exact arithmetic, in three dimensions, for N x N x M meshes with N and M even. Partial because modes that are their own opposite have half the power (C103_violated_selfopposite), which makes the variance of white noise N N M - 9/2 instead of N N M - 1 (C108_violated_variance)."
  },
  {
   "property": "C109",
   "status": "partial",
   "theorems": [
    "Pmesh.C109_int_partial",
    "Pmesh.C109_mesh_partial",
    "Pmesh.C109_violated_far",
    "Pmesh.C109_violated_points"
   ],
   "note": "No overflow for all positions, windows and meshes within the stated bounds. Partial because the code does not check them: beyond 2^31 cells from the local mesh (C109_violated_far), or for windows of 2^31 cells (C109_violated_points), the behaviour is undefined."
  },
  {
   "property": "C110",
   "status": "partial",
   "theorems": [
    "Pmesh.C110_same_partial",
    "Pmesh.C110_unknown",
    "Pmesh.C110_down_partial",
    "Pmesh.C110_down_constant_partial",
    "Pmesh.C110_up_partial",
    "Pmesh.C110_up_constant_partial",
    "Pmesh.C110_subsample_partial",
    "Pmesh.C110_violated_ratio",
    "Pmesh.C110_violated_mixed"
   ],
   "note": "Real fields, exact arithmetic. Partial because of the restrictions of C37 (plain ranks, halo fits, support at most 3 when reading) and C35 (all axes kept in another order), and because painting keeps a constant only if the new numbers of cells divide the old ones (C110_violated_ratio, C110_violated_mixed)."
  },
  {
   "property": "C111",
   "status": "partial",
   "theorems": [
    "Pmesh.C111_shot_noise_partial",
    "Pmesh.C111_shot_power"
   ],
   "note": "Random particles with fixed masses, exact arithmetic, any number of ranks, any dimension, windows nnb, cic, tsc and pcs (tuned or not) of native size. Partial because of the restrictions of C23 on the decomposition (plain ranks, halo fits). r2c is the exact transform of the field that the ranks hold."
  },
  {
   "property": "C112",
   "status": "partial",
   "theorems": [
    "Pmesh.C112_leapfrog",
    "Pmesh.C112_ends",
    "Pmesh.C112_snapshots",
    "Pmesh.C112_each_once_partial",
    "Pmesh.C112_violated_twice",
    "Pmesh.C112_violated_early",
    "Pmesh.C112_violated_no_output",
    "Pmesh.C112_violated_late",
    "Pmesh.C112_drift_wraps"
   ],
   "note": "QPM.run of nbody/qpm.py in exact arithmetic, for all starts, steps and output times. The code violates the property in four ways: output times at a step are written twice, those before the start never, the default aout=[] raises a ValueError after the first force, a start at a >= 1 raises an IndexError. The force itself is a parameter."
  },
  {
   "property": "C113",
   "status": "proved",
   "theorems": [
    "Pmesh.C113_factors"
   ],
   "note": "Kick and Drift of nbody/qpm.py with the expansion rate of nbody/cosmology.py, over the real numbers (exact arithmetic): numpy.linspace and numpy.trapz are transcribed, Mathlib's error bound of the trapezoidal rule is used with an explicit bound of the second derivative for all parameters."
  },
  {
   "property": "C114",
   "status": "proved",
   "theorems": [
    "Pmesh.C114_friedmann",
    "Pmesh.C114_growth",
    "Pmesh.C114_today",
    "Pmesh.C114_einstein_de_sitter",
    "Pmesh.C114_distance",
    "Pmesh.C114_velocity_eds"
   ],
   "note": "Ea, Dplus, D, Dc, FOmega and disp_to_vel of nbody/cosmology.py over the real numbers. romberg is taken as the exact integral and the splines as the functions they tabulate."
  },
  {
   "property": "C115",
   "status": "partial",
   "theorems": [
    "Pmesh.C115_aliasing_partial",
    "Pmesh.C115_compensated_partial",
    "Pmesh.C115_shot_power"
   ],
   "note": "Arbitrary particles and masses, exact arithmetic, any number of ranks, any dimension, windows cic, tsc and pcs of native size (for nnb the sum over aliases does not converge absolutely). Partial because of the restrictions of C23 on the decomposition (plain ranks, halo fits). C115_shot_power holds for all four windows. r2c is the exact transform of the field that the ranks hold."
  },
  {
   "property": "C116",
   "status": "partial",
   "theorems": [
    "Pmesh.C116_readout_partial",
    "Pmesh.C116_interpolates_partial"
   ],
   "note": "Any field and any positions, exact arithmetic, any number of ranks, any dimension, windows cic, tsc and pcs of native size. Partial because of the restrictions of C23 on the decomposition. The bound needs at most 314159 cells per side, as C55."
  },
  {
   "property": "C117",
   "status": "partial",
   "theorems": [
    "Pmesh.C117_solver_partial",
    "Pmesh.C117_pairs_partial"
   ],
   "note": "decompose, paint, r2c, a transfer function, two compensations, c2r and readout on any number of ranks, exact arithmetic, any dimension, windows cic, tsc and pcs of native size. Partial because of the restrictions of C23 on the decomposition; at most 314159 cells per side. r2c and c2r are the exact transforms of the fields that the ranks hold."
  },
  {
   "property": "C118",
   "status": "partial",
   "theorems": [
    "Pmesh.C118_table",
    "Pmesh.C118_sigma8",
    "Pmesh.C118_window_partial",
    "Pmesh.C118_violated_window",
    "Pmesh.C118_violated_sigma8"
   ],
   "note": "PowerSpectrum of nbody/powerspectrum.py over the real numbers, for every table; quad is the exact integral, whose convergence is proved. Violated: the series of WofK for small arguments lacks a factor of 3, so that for every table the variance in balls of radius 8 is larger than the sigma8 that was asked for."
  },
  {
   "property": "C119",
   "status": "proved",
   "theorems": [
    "Pmesh.C119_names",
    "Pmesh.C119_only",
    "Pmesh.C119_resize",
    "Pmesh.C119_fwindow"
   ],
   "note": "All 48 names, all strings, all windows, meshes and particles; exact arithmetic. The names are looked up in the dictionaries of the code; the kernels are those of C14 and C106. Painting is compared for particles of the default size and without derivatives (for others see C20). Integers outside the C enumeration as kind are undefined behaviour and an error in the model."
  },
  {
   "property": "C120",
   "status": "partial",
   "theorems": [
    "Pmesh.C120_unit",
    "Pmesh.C120_directions",
    "Pmesh.C120_length",
    "Pmesh.C120_integral_partial"
   ],
   "note": "The normalisation of lic with exact square roots: unit vectors, dependence on directions only and length of the lines hold in full (windows nnb, cic, tsc, pcs of native size for the length). Partial: the values on several ranks, and their symmetry when all vectors are reversed, under the restrictions of C63, whose violations apply."
  },
  {
   "property": "C121",
   "status": "partial",
   "theorems": [
    "Pmesh.C121_real",
    "Pmesh.C121_pointwise",
    "Pmesh.C121_complex",
    "Pmesh.C121_dot_real",
    "Pmesh.C121_dot_complex",
    "Pmesh.C121_square_complex",
    "Pmesh.C121_dot_array",
    "Pmesh.C121_refused",
    "Pmesh.C121_violated_number",
    "Pmesh.C121_violated_imaginary",
    "Pmesh.C121_violated_product"
   ],
   "note": "Proved for real factors: steps, Hermitian spectra, linearity of dot and the parabola, for all meshes, metrics, powers and numbers of ranks; fields as factors for real fields. The code violates the rest on complex fields, because it works on the real and imaginary parts as separate real numbers: a number a is added to the imaginary parts too, the imaginary part of a number c is dropped, a complex field c multiplies real with real and imaginary with imaginary parts (negations proved); untransposed complex fields raise TypeError. Exact arithmetic; arrays with one number for each particle."
  },
  {
   "property": "C122",
   "status": "partial",
   "theorems": [
    "Pmesh.C122_exact_partial",
    "Pmesh.C122_violated_large"
   ],
   "note": "All modes, storages and values of maxlength, at most 30 axes, for meshes with at most N points along each of d axes, (N+1)^d < 2^63 (in three dimensions 2097150 points along each axis), N < 2^32: no intermediate result overflows and the result is that of C45 to C47. Partial because the code does not check it: beyond, the first size overflows, even with a small maxlength (C122_violated_large). 64-bit ptrdiff_t, 32-bit int."
  },
  {
   "property": "C123",
   "status": "partial",
   "theorems": [
    "Pmesh.C123_report_partial",
    "Pmesh.C123_adds_partial",
    "Pmesh.C123_violated_nested"
   ],
   "note": "All programs of timed blocks, work and exceptions, nested in any way except a key inside a block of the same key. There the code is wrong (C123_violated_nested): the start of the outer block is overwritten. Exact time; the time taken by the timers themselves is left out."
  },
  {
   "property": "C124",
   "status": "partial",
   "theorems": [
    "Pmesh.C124_integers_partial",
    "Pmesh.C124_doubles_partial",
    "Pmesh.C124_type",
    "Pmesh.C124_violated_square"
   ],
   "note": "All grids, positions, natural gamma and distributions over ranks, within the bounds 2^63 (every rank has particles) and 2^53 (some rank is empty) on the gamma-th power of the number of particles. Beyond the code is wrong (C124_violated_square): with gamma=2 the load of a domain with 2^32 particles is 0 and loadbalance puts two such domains on one rank; with the same particles on one rank the loads are right. Powers of doubles are correctly rounded; the sum is in the order of the ranks."
  },
  {
   "property": "C125",
   "status": "partial",
   "theorems": [
    "Pmesh.C125_offsets_partial",
    "Pmesh.C125_violated_large"
   ],
   "note": "All numbers of ranks and counts, while the ranks before the last send fewer than 2^31 items to a rank. Beyond, the stored offsets wrap around and are negative (C125_violated_large, for all counts between 2^31 and 2^32), although each rank alone sends few enough items and recvlength is right. numpy adds int32 in 64 bits and stores in 32 bits."
  },
  {
   "property": "C126",
   "status": "partial",
   "theorems": [
    "Pmesh.C126_free",
    "Pmesh.C126_free_code",
    "Pmesh.C126_uniform_partial",
    "Pmesh.C126_uniform_code_partial",
    "Pmesh.C126_violated_snapshot"
   ],
   "note": "QPM.run of nbody/qpm.py on any number of particles, all starts, steps and output times, with exact factors of kicks and drifts, and to a relative error of 1e-8 with the trapezoidal factors of the code (universes as in C113, steps of at most 0.1). Exact arithmetic. Free motion holds in full. Under a constant acceleration the velocities are right at the ends of steps; in snapshots the code leaves those of the middle of the step (C126_violated_snapshot)."
  }
 ]
}