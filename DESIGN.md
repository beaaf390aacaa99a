# Formal model of pmesh: design

pmesh (python, cython, C) is modelled in Lean 4 function by function, and 
the properties of `properties.jsonl` are proved about the model.  `MANIFEST.json` has the theorems of each property.
Where the code does not have a property, the negation is proved on a concrete
witness (`..._violated...`), and a theorem with suffix `_partial` has the property under the extra hypotheses that make it true.

## Trusted base

* The kernel of Lean 4.33.0, and Mathlib as installed.  No axioms of our own, no `sorry`, no `native_decide`, no `bv_decide`, no
  `implemented_by`, no `unsafe`.  The axioms of each theorem are listed at the end of this file.
* The models under `lean/Verif/Model` are transcriptions made by reading `/repo`.  Nothing of the project was compiled or run.  That the
  transcription is right is trusted; each definition cites file and lines so that it can be compared.
  One check against the outside: the model of ranlxd1 gives 1998227290 / 2^32 as number 10000 for seed 1, the value in the tests of GSL.
* **Numbers.**  Positions, masses and mesh values are in an arbitrary linearly ordered field with floor (so ℚ, which has all finite doubles, and ℝ).
  Floating point rounding, NaN and infinities are not modelled, with these exceptions: the random generator, C56 (`GridND` in floating point), C68, C69 and C73 (tuned windows in floating point), C102 (coordinates) and C105 (collective sums), where
  a rounding function follows every operation (no overflow, no underflow).  Overflow of C and numpy integers is not modelled, except in C57 (int16 `sil`, `sir` and int32 `offset` of `GridND`), C109 (`int` in `paint` and `readout`), C122 (the invariant index), C124 (`load`) and C125 (`Layout`).
  `x % b` is the exact floor remainder.  Fourier transforms and phases are in ℝ and ℂ.
* **External code** is given by its contract: MPI (Alltoall, Alltoallv, allgather, allreduce, Barrier, Isend/Irecv/Send/Recv), numpy (`digitize`,
  `bincount`, `take`, `argsort`, `ufunc.reduceat`, `ravel_multi_index`, `unique`, broadcasting), `heapq`, `sorted`, `mpsort`, `pfft` (exact discrete Fourier
  transform of an array that is split in slabs), libm.
* Memory that `numpy.empty` leaves unset is an arbitrary parameter or `none`, so no theorem can rely on it.

## Structure

* `Verif/Model/*.lean`: the code; total functions, exceptions as values, collective calls as constructors of a small program type.
* `Verif/Spec/*.lean`: a small vocabulary for the statements, independent of the helpers of the models.
* `Verif/Lemmas/*.lean`: the proofs' lemmas.
* `Verif/Props/*.lean`: the property theorems, each with an `example` that meets its hypotheses, and `#print axioms`.

### Programs on several ranks

`Model/Spmd.lean`: a rank is a `Prog`, which returns or makes a collective call with a contribution and continues with the contributions of all.
`Runs` executes all ranks; a call completes only if all ranks make the same call.  `AllReturn n p f` says that every rank returns and what; `Deadlocks` that
no execution returns.  `AllReturn` and `Deadlocks` exclude each other (`Runs.unique`).

Collective calls are atomic in this semantics.  Where the order of events matters (C48 cache of plans, C49 Rotator, C50 coarray) the models are transition
systems with all interleavings.

## What is modelled, file by file

| file | modelled | not modelled |
|------|----------|--------------|
| domain.py, _domain.pyx | `GridND` (constructor, `uniform`, `load`, `loadbalance`, `isprimary`, `decompose`), `gridnd_fill`, `Layout` (constructor, `exchange`, `gather` in all modes, `get_exchange_cost`), `pack_arrays`, `bincountv`, `promote` as collective check and, for real types, with its conversion (Model/Dtype.lean) | the real root in `uniform` (an argument); `load` with a non-integer `gamma`; conversion of complex and structured types |
| window.py, _window.pyx, _window_imp.c, _window_generics.h | window names, `FindResampler` and `resize` (C119), window set up, kernels nearest, linear, quadratic, cubic, the tables of lanczos, acg and wavelets (arbitrary entries for C14 to C20, all entries of the code for C106, Model/TableWindows.lean), `paint`, `readout`, gradients, dispatch between tuned and generic code, `get_fwindow`, `get_compensation`, `Affine` (rescale, shift), the width of the accesses to the array (Model/Bytes.lean) | `asfarray` makes positions, masses and smoothing lengths `f8`, so only these variants of the fused types run: conversion of 64-bit integers above 2^53 and of complex numbers is not modelled |
| _window_tuned_*.h | all access tables and weights of nnb, cic, tsc, pcs in 1, 2, 3 dimensions; the same with a rounding after each operation, including `+=` into the mesh | |
| pm.py | `ParticleMesh`: arguments of the constructor, `reshape`, `resize`, `respawn`; edges and `DomainAssign`, affine, `decompose`, `paint`, `readout`, jvp and vjp, `generate_uniform_particle_grid`, `mesh_coordinates`, `generate_whitenoise`, `upsample`, `downsample`, cache of plans; `Field`: coordinates, `cgetitem`, `csetitem`, `ravel`, `unravel`, `resample`, `preview`, `apply`, `cast`, buffers and choice of plans, `__array_ufunc__`, `create`; `RealField`: `r2c`, `csum`, `cdot` (also with fields of another mesh and arrays), `ctranspose`, `c2r_vjp`; complex fields: `c2r`, `cnorm`, `cdot`, `cdot_vjp`, `r2c_vjp`, `decompress_vjp` | ufuncs that return booleans or other shapes |
| _whitenoise_*.{h,c}, whitenoise.py | everything | cast of the result to a real field other than by `c2r` |
| gsl/ranlxd.c | everything that ranlxd1 uses | ranlxd2, state saving |
| _invariant_imp.c, _invariant.pyx | everything that `get_index` uses; with unbounded integers and with those of C and the cache of sizes (Model/InvariantC.lean) | the stack |
| abopt.py | all operators with jvp and vjp, `nyquist_mask`, `check_grad`, `ParticleMeshVectorSpace` (`dot`, `addmul`) | the engine of package abopt |
| cic.py, _cic.py, tsc.py | everything | |
| coarray.py | `sync`, `Pull`, `Push`, `images` | proxies of another coarray (the file says this does not work), `Scatter` (not defined in the code) |
| tools.py | everything | |
| lic.py | `lic` for a given texture, with and without normalisation of the vectors (C120) | the default texture; the endless loop for `ds <= 0` |
| particlemesh.py, transfer.py | the choice of the brush, `w`, `decompose`, `paint`, `readout`, `transfer`; the sequence of all calls with `clear`, `r2c`, `c2r`, `push`, `pop` on shared memory; all transfer functions, of `PowerSpectrum` and `Trilinear` only up to the exception | `k`, `x`, `r`, `verbose` |
| lanczos.py | `paint` with any window, `linear`, `cubic`, `kaiser(1, 0)` | `lanczos`, other `kaiser` windows and their numerical integrals (they are arbitrary windows) |
| examples/nbody.py | the factors, the three schemes, `force`, `simulate` with its initial conditions | cosmology, printing, the saving of pictures |
| examples/klein-gordon.py | `kgsolver` | `monitor`, `main` |
| nbody/qpm.py | `run`, `RealKick`, `RealDrift`, the factors of `Kick` and `Drift` | `Accel` (a parameter of C112 and C126; it calls `pypm` with arguments that pmesh does not have), the constructor |
| nbody/cosmology.py | `Ea`, `Dplus`, `D`, `Dc`, `FOmega`, `disp_to_vel` with exact integrals and without the splines | `Lazy`, `Vrec`, `FOmega2`, `Pk` (pycamb), `redshift_dist` |
| nbody/powerspectrum.py | `PowerSpectrum`; `quad` as the exact integral | the table of WMAP9 |
| nbody/genic.py, nbody/gravpm.py | nothing | all: they call `pypm` with arguments that pmesh does not have |

### Simplifications to know when reading the models

* `pmPaint` with `hold=False` clears the whole memory, not only the array.
* `Layout` with a vector payload: one scalar per component.
* Fourier: arrays are global; that the ranks hold the pieces of a tiling is in `Tiling`.
* `apply`: `func` is pointwise, at least two axes, known `kind`.
* `resample`, `ravel`: `mpsort` by contract; the early assignment for equal meshes is overwritten later in the code, and left out.
* `ctranspose`: the two assertions on `axes` are left out; transforms other than the mesh's own are a change of the box.
* White noise: exact trigonometric functions; strides in elements; the aborts of `GETSEED` cannot happen; the loop in `SAMPLE` is cut off at 23 rounds, which is proved
  unreachable.
* Invariant index: at most 32 axes.
* Cache of plans: `allgather` is one step; a template is named by the construction that made it.
* Meshes of complex numbers: the view `real.real` shares the addresses of the array.
* Rotator: the bodies make no collective calls.
* Old windows: a scalar weight is one weight per particle; what numpy painted before it raised is dropped.
* abopt: an argument that is both input and output is changed in place; `N = 0` divides by zero (result 0 in Lean) and is excluded by hypothesis where it matters.
* Buffers: two buffers are the same memory or disjoint; the contract of a pfft plan is as in `Fft.execute`; the ranks act in step.
* Arithmetic: all fields of a program are of one class; other operands are numbers or arrays of the shape of the fields.
* Old transfer functions: exact arithmetic, a division by zero gives `none`; single precision of `w` is left out.
* Windows in floating point: the product `scale * x` of numpy in `decompose` and of C in the painter round alike (double); integers up to the mesh size convert exactly; operations are not contracted.
* Constructor: names of windows and window objects are numbers; a refusal by pfft is one event, before the look-up of the planning method.
* check_grad: the code under test, its vjp and jvp are programs with a contract; the gradient is an array, not `ZERO`; a division by zero in `errorstat` counts as outside the bins.
* FromRoot: the decorated function makes no collective calls.
* Coarray: `alltoall` is one step at the start; a chain of indices is one index; `waitall` with the `finish` of the operations is one step.

## Per property

### C01 Ghost delivery reaches exactly the ranks whose domain meets the smoothing region (partial)

Method: `GridND.decompose` and `gridnd_fill` over any ordered field. Per axis: the digitized range of a position with smoothing is the arc of domains that meet the smoothing region; the odometer walk enumerates the product of the arcs.

Result: The code violates the claim for smoothing close to the box (C01_violated_smoothing) and for empty domains with a non-identity assignment (C12_violated). Proved for all grids, positions and assignments under SmoothingFits and FlagsAgree.

Theorems: `C01_delivery_partial`, `C01_delivery_open_partial`, `flagsAgree_identity`, `flagsAgree_nonempty`, `C01_violated_smoothing`.

### C02 At most one copy per rank, in a deterministic order (proved)

Method: The two passes of `gridnd_fill` on the list of emitted targets: invariant of the insertion sort, offsets are prefix sums of the counts.

Result: Assigned ranks must be below the number of domains, otherwise the code reads out of bounds (C12_violated_out_of_bounds).

Theorems: `C02_unique_ordered`.

### C03 Zero smoothing partitions the particles; primary test agrees (proved)

Method: C01 with smoothing 0, plus a model of `isprimary`.

Result: Periodic grids. Also covers empty domains whose flags are seen at the right place (FlagsAgree).

Theorems: `C03_partition`, `C03_isprimary`.

### C04 Exchange delivers the right rows in the right order (proved)

Method: `Layout` over lists indexed by rank; Alltoallv writes at offsets into an unset buffer.

Result: End to end through Layout.__init__ and _exchange in the collective semantics; C04_decompose gives the send lists of GridND.decompose.

Theorems: `C04_exchange`, `C04_layout_ok`, `C04_decompose`.

### C05 Sum-gather is the adjoint of exchange (proved)

Method: Double counting over the segments from source to destination.

Result: Scalar payload; a vector payload is one scalar per component (bincountv loops over components).

Theorems: `C05_adjoint`.

### C06 Exchange followed by gather returns the particle data (partial)

Method: All branches of `gather`; `reduceat` with its rule for empty segments.

Result: all, sum, mean, any, local proved for all layouts. The ufunc branch raises IndexError if the last particle has no copy and returns a foreign value for a particle without copies (negations proved); proved when the last particle has a copy.

Theorems: `C06_roundtrip`, `C06_roundtrip_local`, `C06_roundtrip_ufunc_partial`, `C06_violated_ufunc`, `C06_violated_ufunc_error`.

### C07 Length errors are collective (partial)

Method: Collective semantics with the flag that is gathered from all ranks; deadlock is the absence of any complete run.

Result: Proved for exchange and gather of an array. With pack=True and several columns of different lengths on one rank, and with different trailing shapes, one rank raises alone and the others hang (negations proved).

Theorems: `C07_exchange_error`, `C07_gather_error`, `C07_exchange_ok`, `C07_packed_error`, `C07_violated_packed`, `C07_violated_shape`.

### C08 Default domain assignment is total and balanced (proved)

Method: Integer division blocks.

Result: Default DomainAssign of GridND: round-robin style assignment.

Theorems: `C08_default_assign`.

### C09 Load balancing keeps all domains and obeys the greedy bound (proved)

Method: Greedy list scheduling with extraction of the smallest (load, rank); induction over the sorted domains. The factor 4/3 against every other assignment: the argument of Graham, with an invariant of the greedy steps that counts the items that are large compared with the limit.

Result: List-scheduling bound for loadbalance, and 4/3 - 1/(3n) times the load of any other assignment (tight example).

Theorems: `C09_loadbalance`, `C09_loadbalance_small`, `C09_near_optimal`.

### C10 Domain load counts every particle once, in the domain that contains it (proved)

Method: `digitize`, `ravel_multi_index`, `bincount`.

Result: Load is the number of particles in each domain, periodic or not (without periodicity, positions beyond the ends count for the domains there).

Theorems: `C10_load`, `C10_load_open`.

### C11 The uniform grid always has at least one domain and never more domains than ranks (partial)

Method: Integer part of `uniform`.

Result: Never more domains than ranks is proved for all inputs. At least one domain fails for small boxes (C11_violated) and is proved for sides and root at least 1.

Theorems: `C11_at_most`, `C11_at_least_partial`, `C11_violated`.

### C12 Empty domains neither receive nor suppress particles (partial)

Method: As C01; the flag is looked up by rank in the code.

Result: The code looks the empty flag up by rank instead of by domain; proved for one domain per rank, negation proved in general.

Theorems: `C12_empty_domains_partial`, `C12_violated`, `C12_violated_out_of_bounds`.

### C13 Packed exchange equals separate exchanges (partial)

Method: Packing is a zip of columns; exchange commutes with projections.

Result: At least one array. Without arguments the packed branch raises IndexError instead of returning None.

Theorems: `C13_packed_partial`, `C13_violated_empty`.

### C14 Painting deposits the periodised kernel (partial)

Method: `pmesh_window_info_init`, `_fill_k`, `_generic_paint` with its odometer, against a sum over ℤ of the kernel.

Result: Proved for every position, mass, dimension, period, local box, window size and derivative axes, for all untuned windows with a confined kernel (nearest, linear, quadratic, cubic, lanczos*, acg*) and for tuned windows when Faithful. The code violates the claim for tuned windows with hsml slightly below 1 (C14_violated_hsml) and for wavelet windows, which are cut off at the native support (C14_violated_wavelet; C14_paint_cut states what they do).

Theorems: `C14_paint_partial`, `C14_readout_partial`, `C14_paint_cut`, `C14_weight_finite`, `C14_confined_nearest`, `C14_confined_linear`, `C14_confined_quadratic`, `C14_confined_cubic`, `C14_confined_tables`, `C14_contiguous_distinct`, `C14_violated_hsml`, `C14_violated_wavelet`, `C14_table_interpolates`, `C14_wavelet_interpolates`.

### C15 Mass conservation of the B-spline windows (proved)

Method: Partition of unity of the B-splines, and products over axes.

Result: Holds as stated.

Theorems: `C15_mass_conserved`.

### C16 Painting and readout never touch memory outside the local array (partial)

Method: Bounds of the addresses in the loops. Model/Bytes.lean: an access has 8 bytes if the items have 8 bytes and 4 otherwise, so for half precision (accepted by the assertion) two bytes behind the array are written (negation proved).

Result: Elements: for all arrays. Bytes: for single and double precision; arrays of half precision pass the assertion and are written four bytes at a time, beyond their end (negation proved). Unbounded integers; int overflow of cell numbers is outside the model.

Theorems: `C16_in_array`, `C16_stencil_bounds`, `C16_bytes_partial`, `C16_violated_half`.

### C17 Painting is additive, linear in mass and independent of particle order (proved)

Method: Algebra of folds.

Result: Exact arithmetic.

Theorems: `C17_append`, `C17_perm`, `C17_hold`, `C17_linear`, `C17_add_masses`.

### C18 Periodic images are indistinguishable (proved)

Method: Shift of the floor; wrap loops are remainders.

Result: Holds as stated.

Theorems: `C18_box`, `C18_cells`.

### C19 Readout is the adjoint of paint (proved)

Method: Exchange of sums.

Result: Holds as stated.

Theorems: `C19_adjoint`.

### C20 Tuned windows agree with the generic ones (partial)

Method: Tables of the tuned headers against the generic stencil at the native support.

Result: The code violates the claim for hsml between (native-1)/native and 1, for the pcs gradient with scale other than 1, and for the cic gradient on grid points; proved in all other cases.

Theorems: `C20_tuned_eq_generic_partial`, `C20_violated_hsml`, `C20_violated_pcs_gradient`, `C20_violated_cic_gradient`.

### C21 Gradient windows are the derivatives of the windows (partial)

Method: `HasDerivAt` over ℝ.

Result: Kernels: proved for all reals. readout/paint with gradient=d are the derivatives in the position for every field, window size and dimension, except where the tuned code departs from its kernel: tuned pcs forgets the axis scale (C21_violated_pcs; C21_pcs_gradient gives the exact factor) and tuned cic exactly on grid points. Tabulated kernels: the gradient kernels are the derivatives between the nodes; those of the wavelets are not zero in the interval just before their table, where the kernel is (C21_violated_wavelet).

Theorems: `C21_kernel_tsc`, `C21_kernel_pcs`, `C21_kernel_cic`, `C21_kernel_nnb`, `C21_smooth_tsc`, `C21_smooth_pcs`, `C21_smooth_cic`, `C21_smooth_nnb`, `C21_readout_gradient_partial`, `C21_paint_gradient_partial`, `C21_pcs_gradient`, `C21_violated_pcs`, `C21_kernel_table`, `C21_kernel_wavelet_partial`, `C21_violated_wavelet`.

### C22 Interpolation is exact for constant and linear fields (proved)

Method: Zeroth and first moments of the kernels.

Result: Holds as stated.

Theorems: `C22_linear_exact`.

### C23 Parallel painting equals serial painting (partial)

Method: C01, C04 and C14 composed.

Result: Parallel paint = piece of serial paint, for any ranks, windows, gradient, hold. Partial: halo must not wrap around the box, at most one empty slab per axis, windows not larger than the support; each shown necessary by a witness.

Theorems: `C23_paint_partial`, `C23_violated_hsml`, `C23_violated_scalar_mass`, `C23_violated_halo`, `C23_violated_empty_slabs`, `C23_broadcast`.

### C24 Parallel readout equals serial readout (partial)

Method: C01, C05 and C14 composed.

Result: Parallel readout = serial readout, same restrictions as C23; witnesses that the restrictions are needed: a layout with too small a smoothing, and an hsml the layout does not know of.

Theorems: `C24_readout_partial`, `C24_violated_halo`, `C24_violated_hsml`.

### C25 paint and readout derivatives are mutually adjoint (partial)

Method: C19 and C05 composed, loops over directions by an invariant.

Result: Proved for every mesh, window, consistent layout (in particular the one decompose returns) or no layout, on any number of ranks, both tangents optional: paint_jvp/paint_vjp and readout_jvp/readout_vjp with gradient=None are adjoint, and readout/readout_vjp(out_pos=False) with any gradient direction. With a gradient direction readout_jvp is not adjoint to readout_vjp: it ignores the argument (C25_violated_gradient).

Theorems: `C25_paint`, `C25_readout`, `C25_readout_gradient`, `C25_violated_gradient`.

### C26 Coordinates are in range and congruent to the mesh index (partial)

Method: Integer arithmetic.

Result: Proved for every start, length, mesh size, box and index, except index N//2 of odd meshes. There the code is wrong: on 5 cells index 2 gets -3 instead of 2 (C26_violated_odd); on a mesh of one cell the zero mode gets the wavenumber -2 pi/L (C26_violated_one).

Theorems: `C26_coords_partial`, `C26_opposite_partial`, `C26_nyquist`, `C26_violated_odd`, `C26_violated_one`.

### C27 Setting a complex mode keeps the field Hermitian and reads back (proved)

Method: Global field with an ownership map.

Result: Any partition, Hermitian field, index in [-Nmesh, Nmesh), value, and part (whole, real, imaginary), compressed or full storage. The returned value is the same on all ranks and is what cgetitem reads; it is 0 for an index that is not stored because of the compression (the opposite mode is set then).

Theorems: `C27_csetitem`, `C27_cgetitem`, `C27_csetitem_real`.

### C28 Norms of compressed spectra equal the full-spectrum sums (partial)

Method: Sums over orbits of conjugation.

Result: cnorm and the real part of cdot equal the sums over the full spectrum for any partition, mesh with an even last axis (or full storage), metric and norm. Violated for an odd last axis (norm 4 instead of 6) and for the imaginary part of cdot.

Theorems: `C28_cnorm_partial`, `C28_cdot_partial`, `C28_violated_odd`, `C28_violated_imag`.

### C29 r2c and c2r are inverse with the mean in the zero mode (proved)

Method: Orthogonality of characters in several dimensions.

Result: The FFT is the exact discrete Fourier transform over the complex numbers (contract of pfft); any number of axes, any sizes, full and compressed storage.

Theorems: `C29_c2r_r2c`, `C29_r2c_c2r`, `C29_mean`, `C29_complex`.

### C30 Transforms' vjp are their adjoints (partial)

Method: C29 and C28.

Result: Even last axis or full storage, real part of cdot; with an odd last axis cdot itself miscounts a plane (C28_violated_odd), and the vjp of c2r is wrong (C30_violated_odd).

Theorems: `C30_c2r_partial`, `C30_r2c_partial`, `C30_violated_odd`.

### C31 Fourier resampling keeps common modes and zeroes the rest (partial)

Method: `reindex`, `build_index`, masks, as functions of the mode.

Result: Proved for even sizes on any tilings, any number of axes, refined, equal or at least halved along each axis. Violated: equal meshes lose the Nyquist modes, 8 to 6 cells loses a common mode, odd sizes lose modes or raise ValueError, the imaginary part of the mean of a complex mesh is lost. Every destination with an odd size other than 1 and 5 makes all ranks fail; with 5 one mode gets the value of another.

Theorems: `C31_modes_partial`, `C31_any_ratio_partial`, `C31_real_partial`, `C31_violated_same`, `C31_violated_ratio`, `C31_violated_odd`, `C31_violated_mean`, `C31_violated_odd_fails`, `C31_violated_five`.

### C32 apply visits every mesh point exactly once with its own coordinates (proved)

Method: Strided views; every address is written once.

Result: Pointwise func, at least two axes, any strides and any order argsort returns, in place or not.

Theorems: `C32_apply`.

### C33 ravel and unravel are global C-order serialisations (proved)

Method: Merge sort by distinct keys is the C-order enumeration.

Result: Any tiling, any element type; mpsort by its contract.

Theorems: `C33_ravel`, `C33_unravel`, `C33_round_trip`, `C33_unravel_length`.

### C34 The uniform particle grid has unique ids and one particle per cell (proved)

Method: Mixed radix numbers.

Result: Any mesh, any split; exact arithmetic.

Theorems: `C34_ids`, `C34_cell`, `C34_partition`.

### C35 preview returns the global array or projection on every rank (partial)

Method: Sums over the removed axes.

Result: Every proper selection of axes in any order, and all axes in natural order. Violated when all axes are kept in another order: the array is not transposed (square mesh) or an exception is raised. Resampling through Nmesh is not modelled here.

Theorems: `C35_projection_partial`, `C35_whole`, `C35_violated_order`, `C35_violated_shape`.

### C36 Distributed transpose (partial)

Method: Readout and paint with the nearest window at grid points.

Result: Any permutation, any split of both meshes. Partial: if slabs of the transposed mesh are empty, the ranks must be in C order (PlainRanks); otherwise violated (witness).

Theorems: `C36_ctranspose_partial`, `C36_violated_order`.

### C37 Down- and up-sampling keep mass/mean and do not depend on the number of ranks (partial)

Method: C15, C22, C23, C24.

Result: Rank independence, conservation of the sum or the density, and constants. Partial: halos must fit (HaloFits) and PlainRanks. Violated for upsample with a window wider than the hard coded smoothing 1.6 (pcs on two ranks).

Theorems: `C37_downsample_ranks_partial`, `C37_downsample_total_partial`, `C37_upsample_ranks_partial`, `C37_upsample_constant_partial`, `C37_violated_upsample_pcs`.

### C38 White noise is independent of the domain decomposition (partial)

Method: `_generic_fill` with an abstract generator: the value of a mode is a function of global indices.

Result: Any two local boxes have the same value in each mode they share, for every previous content of memory, so every stored mode is written; compressed storage or last axis not split. Violated for full fields split along the last axis: modes of negative last index are not written.

Theorems: `C38_partition_partial`, `C38_violated_split`.

### C39 White noise is Hermitian (proved)

Method: The same function at opposite modes.

Result: Mesh square in the first two axes, last axis even (covers even cubic meshes), compressed and full storage, modes on different ranks. C39_violated_odd: odd last axis with full storage.

Theorems: `C39_hermitian`, `C39_violated_odd`.

### C40 White noise is resolution independent (proved)

Method: The walk over seeds for a larger mesh extends that of the smaller.

Result: Any two even cubic meshes, any boxes, every mode number below both Nyquist frequencies.

Theorems: `C40_resolution`.

### C41 Every column of the mesh gets its own random stream (partial)

Method: Counting the calls of SETSEED.

Result: Bijection between columns and the first N^2 draws for even square meshes. Violated for every odd size (columns (N-1)/2 get seed 0, so their modes are equal), for meshes that are not square, and for meshes of more than 2^31 columns (two columns share a 31 bit seed and have equal modes, whatever the generator).

Theorems: `C41_columns_partial`, `C41_violated_odd`, `C41_violated_equal`, `C41_violated_oblong`, `C41_violated_large`.

### C42 Unitary white noise has unit amplitude; zero mode is the requested mean (partial)

Method: Case analysis of `modeValue`, then C32.

Result: Exact arithmetic; no axis of one cell (violated there: the mean is not set); full fields not split along the last axis. Three axes; fewer axes are C67.

Theorems: `C42_mean_partial`, `C42_unitary_partial`, `C42_violated_single`.

### C43 Random numbers stay in [0,1) (proved)

Method: Invariant: all words are multiples of 2^-48 in [0,1), so every operation is exact for any faithful rounding.

Result: ranlxd1 as a state machine over exact rationals with an arbitrary rounding function after every operation that keeps 53-bit values. Also: the values do not depend on the rounding, of 23 consecutive numbers one is not zero, and SAMPLE returns an amplitude in (0,1).

Theorems: `C43_range`, `C43_exact`, `C43_nonzero`, `C43_sample`.

### C44 The unrolled generator is the subtract-with-borrow recurrence (proved)

Method: The unrolled block is twelve steps of the recurrence; induction over calls.

Result: Number n is word 202 (n/12 + 1) + n % 12 of the subtract-with-borrow sequence with lags 5 and 12 from the seed's bits, for every seed and n. C44_luxury: same for every luxury of at least 11.

Theorems: `C44_recurrence`, `C44_luxury`.

### C45 The invariant index is a bijection (proved)

Method: Caps of a shell as a partition; induction over the number of axes.

Result: Every number of axes up to 32 and every mesh; the bijection also covers odd cubic meshes. The bit counting arithmetic of get_nbits is modelled step by step.

Theorems: `C45_distinct`, `C45_bijection`, `C45_compressed`.

### C46 The invariant index is inside-out and resolution independent (partial)

Method: Shells are numbered consecutively.

Result: Inside-out for modes with |x| <= N/2. Violated for the frequency -(N+1)/2 that pmesh uses on odd meshes. Resolution independence holds below the Nyquist mode; the Nyquist mode itself has another index on a finer mesh.

Theorems: `C46_inside_out`, `C46_resolution_partial`, `C46_violated_nyquist`, `C46_violated_odd`.

### C47 maxlength truncates exactly; out-of-range modes give -1 (partial)

Method: Truncated run against the full run.

Result: Every mode, mesh and positive maxlength. With maxlength=0 the zero mode still has index 0.

Theorems: `C47_maxlength_partial`, `C47_zero_length`, `C47_outside`, `C47_outside_compressed`, `C47_violated_zero`.

### C48 All ranks agree on reusing a cached mesh plan (partial)

Method: Transition system; invariant by induction on histories.

Result: Every interleaving of constructions, collections and opening/closing of communicators on any number of ranks and communicators; each rank has at most one live object per communicator. Violated without that: a rank with two objects for one communicator can combine plans of different constructions.

Theorems: `C48_agree_partial`, `C48_all_or_none_partial`, `C48_violated_handles`.

### C49 Rotator runs the bodies one rank at a time without deadlock (proved)

Method: Transition system of barriers; invariant on the number of barriers passed.

Result: All schedules of any number of ranks, with bodies of any length; the bodies make no collective calls.

Theorems: `C49_order`, `C49_exclusive`, `C49_progress`, `C49_finite`, `C49_barriers`.

### C50 Coarray transfers deliver to the operation that asked (partial)

Method: Transition system of ranks, messages and receives; invariant that relates the state to the executed part of each program; progress; a measure that decreases with each step.

Result: For any number of ranks, operations and every schedule of ranks and messages: if no rank pulls from a rank that pushes to it, and no pushed view is overwritten by a push, sync never gets stuck, ends, and leaves pulls and pushes as specified. Without the first condition data is swapped in every schedule, or sync hangs; without the second the result depends on the schedule, as in the test at the end of coarray.py (all proved with witnesses).

Theorems: `C50_sync_result_partial`, `C50_sync_never_stuck_partial`, `C50_sync_terminates`, `C50_images`, `C50_pull_holds_partial`, `C50_push_stored_partial`, `C50_sync_untouched_partial`, `C50_violated_cross`, `C50_violated_deadlock`, `C50_violated_race`.

### C51 The pure-python CIC agrees with the compiled CIC window (partial)

Method: Both python versions against the model of the compiled window.

Result: Both versions (numpy, numba), any dimension, chunk size, mode, transform, masses. Violated: the numba paint writes into a copy of a mesh that is not C-contiguous, so nothing is painted; a zero entry of period sends everything to cell 0 in the numpy version.

Theorems: `C51_numba_paint_partial`, `C51_numba_readout`, `C51_numba_returns`, `C51_numpy_paint`, `C51_numpy_readout`, `C51_numpy_returns`, `C51_violated_noncontiguous`, `C51_violated_zero_period`.

### C52 The pure-python TSC agrees with the compiled TSC window (partial)

Method: As C51.

Result: Violated: tsc.paint deposits every particle one cell too low, and tsc.readout raises NameError. Proved: apart from that shift it paints exactly what the tsc window paints, in any dimension, for any particles, on a contiguous mesh, including half-integer positions.

Theorems: `C52_shifted_partial`, `C52_violated`, `C52_violated_readout`.

### C53 Automatic-differentiation operators have matching jvp and vjp (partial)

Method: Bilinear forms; C25, C30, C31 for the parts.

Result: Proved for residual, assign, add, multiply (real), to_scalar, transfer and readout, on any number of ranks, with the jvp shown to be the change of the operator for the elementwise ones. Violations proved: the jvp of paint lacks the factor Nmesh.prod()/N of the operator and the vjp (partial: N = Nmesh.prod()); assign_component passes the cotangent on to the overwritten component (partial: zero tangent there); multiply of complex fields lacks the conjugate; decompress matches with the inner product over independent modes but not with cdot; lowpass discards the result of its jvp and vjp, which are identities. c2r and r2c are C30. The engine of the package abopt is not modelled. The operator lowpass itself keeps exactly the modes within Neff//2 on even meshes; on odd ones it removes the highest frequency (violation proved).

Theorems: `C53_residual`, `C53_assign`, `C53_add`, `C53_multiply`, `C53_to_scalar`, `C53_assign_component_partial`, `C53_transfer`, `C53_decompress_partial`, `C53_paint_factor`, `C53_paint_partial`, `C53_readout`, `C30_c2r_partial`, `C30_r2c_partial`, `C53_lowpass_identity`, `C53_violated_paint`, `C53_violated_assign_component`, `C53_violated_multiply`, `C53_violated_decompress`, `C53_violated_lowpass`, `C53_lowpass_band_partial`, `C53_violated_lowpass_odd`.

### C54 Collective sum is the sum of the global field (proved)

Method: Nested sums.

Result: Any split, any order of the axes on each rank; exact arithmetic.

Theorems: `C54_csum`.

### C55 get_fwindow is the Fourier transform of the window and compensation undoes it (partial)

Method: Primitives of piecewise polynomials times exponentials; unfolding of the sum over cells and the average over offsets into one integral over the line.

Result: For nearest, linear, quadratic, cubic, nnb, cic, tsc, pcs at every support: get_fwindow is the Fourier transform of the kernel (to 1e-21, exactly outside the Taylor range of sinc_unnormed), the compensated spectrum averaged over grid positions is that of the point particles, and for native size no division by zero. Fails for windows enlarged to twice the native size: the transform is zero at Nyquist. The tables of lanczos, acg and wavelets have no closed form (the code returns 1) : compensation leaves the field as it is.

Theorems: `C55_fwindow`, `C55_bounds`, `C55_compensated`, `C55_modes`, `C55_violated_resized`, `C55_tabulated`.

### C56 Domain decomposition is robust against floating-point rounding (partial)

Method: The floating point range along an axis is that of the exact code for a slightly moved interval; binary rounding to nearest even is shown to be an instance.

Result: decompose is robust for any rounding: delivery holds up to three rounding errors, and without smoothing there is exactly one rank. isprimary and load fail for positions just below 0, which wrap to the box size: isprimary is false on all ranks, load raises and hangs the other ranks. If the first domain is empty such a position is sent to two ranks.

Theorems: `C56_decompose`, `C56_decompose_open`, `C56_partition`, `C56_isprimary_partial`, `C56_load_partial`, `C56_load_hang`, `C56_exact`, `C56_violated_isprimary`, `C56_violated_load`, `C56_violated_empty_first`.

### C57 Machine integers suffice for the domain decomposition (partial)

Method: Bounds of the ranges along an axis; where they exceed the type, the wrapped value is computed.

Result: Holds up to 16384 domains per periodic axis (32767 open) for decompose, 32767 for load, and 2^31 - 1 copies. Beyond that nothing checks: with 32767 domains a particle near the end of the box is sent to no rank; with 32769 load raises; with 2^31 - 1 particles that reach two ranks the array of indices gets length -2.

Theorems: `C57_decompose_partial`, `C57_load_partial`, `C57_totalsize_partial`, `C57_violated_decompose`, `C57_violated_load`, `C57_violated_totalsize`.

### C58 Different seeds give different random numbers (partial)

Method: Subtract-with-borrow as division modulo a number with 174 digits, so equal outputs go back to equal seeds.

Result: Seeds 1 to 2^31 differ among the first 24 numbers (the state is a number modulo 2^576 - 2^240 + 1, steps are divisions by 2^48; the unseen borrow is excluded by two blocks). Violated beyond: seeds s and 2^32 - s give the same generator and the same white noise field, as do 0 and 1.

Theorems: `C58_distinct_partial`, `C58_violated`, `C58_violated_noise`.

### C59 Transforms are right for every sharing of memory (partial)

Method: The content of a buffer is arbitrary outside the view last written, and junk if a plan is used with buffers it is not made for; case analysis over sharing and padding.

Result: r2c, c2r and cast: proved for every sharing of buffers. resample: proved for real and transposed results that do not share memory with a source of another class on a mesh of the same size. resample into an untransposed field returns permuted modes (C59_violated_resample_untransposed); resample into a view of another class of the source's own memory transforms twice (C59_violated_resample_shared).

Theorems: `C59_r2c`, `C59_c2r`, `C59_cast`, `C59_roundtrip`, `C59_resample_partial`, `C59_violated_resample_untransposed`, `C59_violated_resample_shared`.

### C60 Arithmetic on fields is arithmetic on arrays (partial)

Method: Simulation between the program on fields and the program on arrays, by induction over statements.

Result: Proved by simulation for all programs that do not bind two names to one field or have no in-place statements, with real numbers on real fields. Violated otherwise: a += 1 changes the field but binds a to a copy, so a second a += 1 is not seen under another name of the field; a real field times an imaginary number silently loses the imaginary part.

Theorems: `C60_partial`, `C60_inplace_once`, `C60_violated_alias`, `C60_violated_complex`.

### C61 A layout serves particles that have moved (partial)

Method: General lemmas on layouts that send each particle to every rank where its window is not zero; triangle inequality on the circle.

Result: Proved under the restrictions of C23 on the halo and on empty slabs. The default smoothing leaves no room for motion: C61_violated_default.

Theorems: `C61_paint_partial`, `C61_readout_partial`, `C61_violated_default`.

### C62 Painting keeps the sign and readout stays within the range of the field (partial)

Method: The kernels are nonnegative; partition of unity.

Result: Sign of paint: proved for all smoothing lengths. Range of readout: proved for the native size of the window; with hsml 3/2 the constant 1 is read as 10/9 (C62_violated_hsml).

Theorems: `C62_paint`, `C62_readout_partial`, `C62_violated_hsml`.

### C63 Line integral convolution integrates the texture along the streamlines (partial)

Method: C61 for each step; induction over steps; the window average is bounded by the field (C62).

Result: The values that lic integrates are proved to be the line sums for any number of ranks when the largest vector occurs on every rank and cells are not smaller than the unit of length. The field that lic returns is wrong: the values are passed to paint as smoothing lengths (C63_violated_hsml). Also violated: step in box units while the halo assumes pixels (C63_violated_units), maximum taken per rank (C63_violated_vmax), deadlock on an empty rank (C63_violated_empty).

Theorems: `C63_steps`, `C63_integral_partial`, `C63_violated_hsml`, `C63_violated_units`, `C63_violated_vmax`, `C63_violated_empty`.

### C64 A chain of transfer functions does what the functions say (partial)

Method: Induction over the chain; each function as a factor at the global frequency.

Result: Proved for chains of NormalizeDC, RemoveDC, SuperLanzcos, Gaussian, Constant and Poisson on even meshes whose zero mode does not vanish when it is divided by. Laplace multiplies every row with the factor of the last row and raises on ranks without rows; Trilinear and PowerSpectrum always raise; Inspect takes local indices; on odd meshes the frequencies are wrong.

Theorems: `C64_transfer_partial`, `C64_inspect_partial`, `C64_violated_laplace`, `C64_violated_laplace_empty`, `C64_violated_trilinear`, `C64_violated_powerspectrum`, `C64_violated_inspect`, `C64_violated_odd`.

### C65 The deprecated ParticleMesh paints and reads like the new code in a single process (partial)

Method: C51 for the local step, C61 for the routing; two runs of the same program agree.

Result: Proved for the cic brush, slabs in C order of the ranks, C-contiguous canvas and slabs for which the halo does not wrap around. With the tsc brush mass is lost at the boundaries of slabs, with slabs in another order particles are lost, and names of brushes in upper case raise.

Theorems: `C65_paint_partial`, `C65_readout_partial`, `C65_violated_tsc`, `C65_violated_order`, `C65_violated_name`.

### C66 The transfer of abopt keeps a field real (partial)

Method: The mask selects the modes that are their own opposites; wavevectors of opposite modes off the Nyquist planes.

Result: Proved for even meshes and fields or functions that respect the Nyquist planes. Violated by a derivative at the Nyquist frequency of its axis, where both modes of an opposite pair get the same imaginary factor, and on odd meshes, where the mask zeroes one mode of a pair.

Theorems: `C66_transfer_partial`, `C66_violated_gradient`, `C66_violated_odd`.

### C67 White noise on meshes of one and two axes does not depend on the ranks and is white (partial)

Method: The discrete Fourier transform of the array of random numbers and its inverse (C29).

Result: No axis of a single point: there the wavenumber is not zero and the mean is not set. The random numbers of numpy are an arbitrary array that is the same on all ranks.

Theorems: `C67_noise_partial`, `C67_violated_single`.

### C68 Rounding never loses or doubles a particle that is painted or read on several ranks (partial)

Method: The rounded local index of a cell against the rounded global one, axis by axis: differences of a number of the format and a start are exact or both sides fall on the same half cell; the interval of `decompose` ends in the same cell.

Result: Nearest window, positions inside the box, mesh sizes below 2^(p-4). Outside of the box violated: float64 particle at -1/2-2^-53 cells is written by no rank. The other windows are C69; C68_safe covers all tuned windows. Compilers that contract operations are not modelled.

Theorems: `C68_safe`, `C68_exact`, `C68_nearest_partial`, `C68_violated_lost`.

### C69 Painting with cic, tsc and pcs in floating point is accurate on any number of ranks (proved)

Method: The window is a sum of polynomial pieces around a base cell; the pieces of neighbouring base cells glue together, so a base cell that is off by rounding costs only the rounding; C56 for the ranks that are not sent the particle; running sums by induction.

Result: Up to three axes, cic, tsc and pcs. e is B*N*eps, B the number of boxes that a particle may be away from the origin; slabs must leave room for the window (HaloFits), as in C20. C69_field: all ranks, sums in the type of the field. C69_particle also bounds the weights of readout; the sum of a readout is not covered.

Theorems: `C69_particle`, `C69_field`.

### C70 lanczos.paint adds the normalised product window of every particle, and keeps the mass (partial)

Method: As C51: digits of the neighbour number, the sum over neighbours as a product over axes; a finite sum over the integers near the particle.

Result: Any window. Mass is kept on one axis or if the integral is 1 (linear, cubic for every alpha). Otherwise violated: paint divides by the integral once instead of once per axis, so kaiser(1, 0) doubles the mass of every particle on a mesh of two axes.

Theorems: `C70_paint`, `C70_returns`, `C70_linear`, `C70_cic`, `C70_total`, `C70_mass_partial`, `C70_support`, `C70_linear_sums`, `C70_cubic_sums`, `C70_kaiser_sums`, `C70_cubic_mass`, `C70_violated_mass`.

### C71 Forces from the mesh obey the third law and conserve momentum (proved)

Method: Adjointness of paint and readout (C25) for any layouts; Parseval in compressed storage; conjugation mode by mode.

Result: For all meshes, ranks, layouts (also without one), windows and transfer functions, in exact arithmetic. The transforms are those of the FFT contract on the global array.

Theorems: `C71_third_law`, `C71_reciprocity`, `C71_momentum`, `C71_no_self_force`, `C71_energy`.

### C72 paint_jvp and readout_jvp are the derivatives of paint and readout, and the vjp functions their gradients (partial)

Method: The product rule along the axes of the window; the result of the jvp functions cell by cell (the loop over axes by induction); C25 for the gradients.

Result: Proved for paint, readout and their jvp and vjp on all ranks and layouts, at all positions for tsc and generic pcs, off the grid points for cic. Partial: the code violates it for the jvp of the paint operator of abopt, which lacks the factor Nmesh.prod()/N (C72_violated_abopt_paint), and for tuned pcs with cells of other than unit size (C21_violated_pcs).

Theorems: `C72_paint`, `C72_readout`, `C72_paint_gradient`, `C72_readout_gradient`, `C72_abopt_paint`, `C72_abopt_paint_partial`, `C72_violated_abopt_paint`, `C72_abopt_readout`, `C72_smooth_tsc`, `C72_smooth_pcs`, `C72_smooth_pcs_unit`, `C72_smooth_cic`.

### C73 Readout with cic, tsc and pcs in floating point is accurate on any number of ranks (proved)

Method: C69 cell by cell for the weights; at most 64 cells are read and at most 64 have weight, so the errors add up; running sums with relative rounding errors for the products, the sum on a rank and `bincount` over the ranks.

Result: The fraction is 2^20 (k+1) e + 512 k ((1+eps)^(65+k) - 1) for a particle sent to k ranks, e a bound on eps times mesh size times distance in boxes.

Theorems: `C73_readout`.

### C74 The particle-mesh solver does not depend on where the box begins, and a uniform grid of particles feels no force (partial)

Method: C23/C24 reduce the ranks to the global field; C18 for the window; the shift theorem of the discrete Fourier transform, with the Hermitian phase for modes that are not stored; reflection of the sum over a lattice for the uniform grid.

Result: Partial for the restrictions of C23 only (halo not wider than the box, no empty slabs in odd rank order), without which the code paints wrongly.

Theorems: `C74_translation_partial`, `C74_mean_partial`, `C74_uniform_grid_partial`.

### C75 Filters in Fourier space are exact for functions that the mesh resolves (partial)

Method: The transform of a wave has the two modes +k and -k (orthogonality); C26 gives the wavevector of each, C32 what apply does on each rank, C29 the transform back. Derivatives of plane waves by calculus. On meshes of odd size the code takes the highest frequency for the one of the opposite sign: witness proved.

Result: Proved for waves with fewer than Nmesh//2 periods along each axis, for all even meshes the full statement. Partial: on meshes of odd size the code gives the frequency Nmesh//2 the wavenumber -(Nmesh//2+1); proved that i*k then gives -1/2 times the derivative of cos(2 pi x/L) on 3x3 points. Functions are arrays of at least two axes (apply raises in one dimension).

Theorems: `C75_filter_partial`, `C75_gradient_partial`, `C75_poisson_partial`, `C75_violated_gradient_odd`.

### C76 The particle-mesh solver gives the same on any number of ranks (partial)

Method: The closed forms of paint and readout from C23/C24 depend on mesh and box only, and sums do not depend on the order of the particles.

Result: Partial for the restrictions of C23 only (halo not wider than the box, no empty slabs in odd rank order), without which the code paints wrongly. Exact arithmetic: rounding depends on the order of summation, see C60 and C73.

Theorems: `C76_rank_independent_partial`.

### C77 Products of spectra: inner products, convolutions and correlation functions (partial)

Method: Parseval from orthogonality, with C28 for the weights of compressed spectra; convolution and correlation from the behaviour of r2c under displacements by whole cells (C74) and C29; the gradient of cdot mode by mode. For odd sizes the docstring of cdot is wrong: witness proved.

Result: Convolution, correlation and gradient hold for all meshes. The inner product and the norm are proved for compressed axes of even size (or full storage); for odd sizes the code counts the plane of the highest frequency once, witness C77_violated_odd.

Theorems: `C77_cdot_partial`, `C77_cnorm_partial`, `C77_convolution`, `C77_correlation`, `C77_cdot_vjp`, `C77_violated_odd`.

### C78 The deprecated ParticleMesh is a correct state machine although real and complex field share memory (proved)

Method: A machine with typed current field as specification; refinement by induction over the sequence of calls, for arbitrary views of one buffer and arbitrary leftovers of the transforms; the loop over directions by evaluating the specification. What a user may expect beyond this fails: witnesses for c2r twice without push, and readout after pop.

Result: The two violated theorems show that the condition on the order of calls is needed: the real field is lost with pop, the complex one with c2r.

Theorems: `C78_refines`, `C78_push_pop`, `C78_force_loop`, `C78_pop_empty`, `C78_violated_no_push`, `C78_violated_pop`.

### C79 The gradient read off the mesh is the exact gradient of the mesh energy (proved)

Method: The energy is half the inner product of the density with its image under the transfer function (C25), a quadratic form in the cells. Its derivative along the motion is twice the mixed form by symmetry for real transfer functions (the lemma of C71), with the derivative of the density from C72; the adjoint relation C25 turns it into the readout with gradient.

Result: For every real transfer function, window with a derivative at the particles, any number of ranks and layout; the particles move on straight lines through the points where the gradient is taken. Exact arithmetic, contract of pfft.

Theorems: `C79_energy_gradient`.

### C80 reshape, resize and respawn change only what they are asked to change (partial)

Method: The constructor is characterised exactly (`newMesh_iff`): it succeeds if and only if the checks pass, and the result is determined by the arguments. The rest follows by computing the arguments that reshape and respawn pass on. Which process meshes pfft takes is a parameter.

Result: Cells, box, communicator, process mesh, type and window are kept or changed as asked, with ValueError exactly as documented. Violated: plan_method is dropped, going to fewer axes and back fails, and no mesh with a process mesh can be reshaped to one axis.

Theorems: `C80_reshape`, `C80_reshape_nothing_partial`, `C80_reshape_twice`, `C80_resize_back`, `C80_respawn`, `C80_violated_plan`, `C80_violated_dimension_back`, `C80_violated_one_axis`.

### C81 The particle-mesh solver has the symmetries of the box (partial)

Method: The weight of a particle on a cell is a product over the axes of one function of the number of cells, the position in cells and the cell (`weightAt_prod`), whichever loop computes it. A symmetry is a pair of bijections of positions and cells that keeps weights and phases (`Symmetry`); for any such pair the solver runs correspond (`Symmetry.solver`). The three symmetries are then properties of finite products, of the sum over periodic images of an even kernel, and of `x N / L`.

Result: Exchange of axes and units: all windows. Mirror images: all confined even windows, among them cic, tsc, pcs of any size; violated for nnb half way between two cells (witness). Restrictions of C23 on the decomposition; exact arithmetic, contract of pfft.

Theorems: `C81_axes_partial`, `C81_mirror_partial`, `C81_units_partial`, `C81_even_windows`, `C81_violated_nearest`.

### C82 Painting commutes with projection (partial)

Method: A sum over the mesh of a product over the axes is the product of sums (`sum_prod_axes`); the weights along an omitted axis add up to one. The transform of a projection is a slice of the transform by exchange of sums. The mesh is shown to be a tiling (`tiling_ok`), so the theorems on `preview` and `csum` (C35, C54) apply to painted fields.

Result: Windows nnb, cic, tsc, pcs of native size; violated for other sizes, whose weights do not add up to one (witness). Restrictions of C23 on the decomposition and of C35 on preview.

Theorems: `C82_projection_partial`, `C82_readout_partial`, `C82_total_partial`, `C82_violated_size`.

### C83 White noise on three axes is one real field with the requested mean and power (partial)

Method: All ranks are compared with a single process that stores the whole mesh (C38, C42); C39 gives the Hermitian symmetry, so C29 (transform there and back, mean) and Parseval (C77) apply; the amplitudes are one by C42.

Result: First two axes equal, last axis even (otherwise C39 is violated), no axis of a single point (C42), full fields not split along the last axis (C38).

Theorems: `C83_noise_partial`.

### C84 Noise made on one mesh and resampled is the noise made on the other mesh (partial)

Method: The modes of the two meshes agree by C40, with mode numbers matched to the frequencies of C31; C83 for the ranks on both sides, C31 for resample.

Result: Even cubic meshes, refined, equal, or coarsened at least by two: restrictions of C31 and C40; other ratios violate C31.

Theorems: `C84_noise_resample_partial`.

### C85 A simulation from seed to final state is the same on any number of ranks (partial)

Method: A run is a relation between the local arrays before and after: the message passing programs of decompose, paint and readout return, and the FFT library satisfies its contract (existence of arrays with the contract is proved, so the relation is not empty). One step is shown to be the map of a function of a body that depends on mesh, box and the multiset of bodies only (C23, C24, C76); induction over steps. The start from C34 and C83.

Result: Restrictions of C23 on the decomposition (its witnesses apply); noise on three axes as C38/C42; both runs use the same storage of modes; contract of pfft; exact arithmetic.

Theorems: `C85_simulation_partial`, `C85_seed_to_final_partial`.

### C86 A simulation conserves momentum and keeps equilibrium for any number of steps (partial)

Method: Induction over the steps of C85. Momentum: the sum of mass times value read is the inner product of the density with its own image under an antisymmetric operator (C71). Equilibrium: the density of the grid is constant (C74), so only the zero mode is left.

Result: Restrictions of C23 on the decomposition; contract of pfft; exact arithmetic.

Theorems: `C86_momentum_partial`, `C86_equilibrium_partial`.

### C87 The N-body program of the examples: same result on any number of ranks, momentum, clocks and exact reversibility (partial)

Method: Model/NBody.lean: the four arrays as one record per particle, the statements of the loops as a list of force, kick and drift with their arguments, `force` as decompose, paint, allreduce, r2c, transfer, c2r, readout on all ranks (the relations of C85). Lemmas/NBody.lean: each statement in closed form (one function of the body and the multiset of all bodies). Ranks, momentum (antisymmetry of the transfer function, as C71) and reversibility by induction over the statements; the clocks by induction over the times; oddness of the seven factor classes from interval integrals.

Result: proved for the three schemes, any factors and any number of time steps, on any number of ranks; partial: the restrictions of C23 on the decomposition, and for the seed those of C38/C42. Exact arithmetic; cosmology functions and quad are parameters or exact integrals

Theorems: `C87_ranks_partial`, `C87_momentum_partial`, `C87_clocks`, `C87_totals`, `C87_odd`, `C87_reversible_partial`, `C87_simulate_partial`.

### C88 The Klein-Gordon solver of the examples follows its documented scheme (partial)

Method: Model/KleinGordon.lean with the relations of C85 for r2c and c2r on all ranks. Induction over the steps: each rank holds its modes of one sequence of spectra. The factor is positive, so the division can be undone. Violation: a uniform field has only its zero mode, computed in closed form for all meshes and dt.

Result: proved: the recurrence the solver satisfies in every mode, for any number of steps and ranks, and that the result does not depend on the ranks. The recurrence lacks the factor 2 of the documented one (violated: a stationary uniform field changes to 2 dt^2/(4+dt^2) of its value in one step), and a run with two times raises (violated). monitor and main are not modelled

Theorems: `C88_scheme_partial`, `C88_violated_stationary`, `C88_violated_two_times`.

### C89 The cost of an exchange is reported exactly, and the number of copies is bounded (proved)

Method: Cost: the collective semantics and C04_decompose (send lists in closed form). Copies: the edges of an axis are continued periodically to all integers; domains that meet an interval of length 2s have different numbers there, and between the first and the last lie only whole domains, so there are at most ceil(2s/w)+1; ranks are images of choices of one domain per axis. Sum over particles by exchanging sums.

Result: cost proved for all layouts, and in terms of the particles for layouts from decompose; the bound for all grids whose domains have positive width, under the conditions of C01 (SmoothingFits, FlagsAgree), without which decompose does not deliver as documented

Theorems: `C89_copies`, `C89_cost`, `C89_cost_decompose`.

### C90 A simulation of any length has the symmetries of the box, on any number of ranks (partial)

Method: Induction over the steps: each step of a machine is the map bodyStep of the bodies of all ranks (from C85), so it suffices to compare one step; densities agree by the symmetry of the weights (C81, C82), modes by r2c at the image modes, readout by reindexing the sum over cells; the real factors c let components of the force change their sign or scale. Storage: the identity is a symmetry between any two storages.

Result: complete on the model under the restrictions of C23 (a decomposition that covers the window, plain rank order); the mirror image additionally needs a window that is even and vanishes outside its support (all but the nearest-cell window, C81)

Theorems: `C90_axes_partial`, `C90_mirror_partial`, `C90_units_partial`, `C90_storage_partial`, `C90_shift_partial`.

### C91 The N-body example integrates the equations of motion to the order in the name of the scheme (proved)

Method: Factors: the fundamental theorem of calculus and the product rule. Order: expansions with remainders o(h^n) (Lemmas/Expand), closed under sums, products, twice differentiable functions (second order Taylor theorem from the symmetry of second derivatives and the mean value inequality) and integration; the exact motion is expanded by integrating the equations order by order, the scheme by its substeps, and the coefficients compared. Growing mode: invariant along the clocks of C87.

Result: the schemes as lists of statements of the model, run with an exact force function; quad as the exact integral; order for class Quinn, for one step; class FastPM: exact growing mode

Theorems: `C91_factors`, `C91_order`, `C91_growing`.

### C92 The N-body example computes the gradient of the potential of its particles (partial)

Method: Shifts by cells are phases (C82), so the transfer function is a combination of four shifts, also where the index of the mode wraps around; r2c and c2r are inverse (C29); the potential cancels k^2 except for the mean, where the difference vanishes.

Result: complete on the model under the restrictions of C23 (decomposition covers the window, plain rank order)

Theorems: `C92_force_partial`, `C92_potential`, `C92_displacement`, `C92_spectrum`.

### C93 The N-body schemes conserve the volume of phase space (partial)

Method: Along each scheme every kick comes after a force at the present displacements (induction over the statements), so the run is a composition of shears; shears of measurable functions keep Lebesgue measure (Fubini). The force is a measurable function of the displacements: the weights are pieces of measurable kernels selected by floor. Symplectic form: derivatives of shears by symmetric matrices; for the force of the mesh violated: on four cells the force is a polynomial of the two positions (C92 with an explicit potential) whose mixed derivatives differ.

Result: volume: complete on the model under the restrictions of C23; symplectic form: for forces with a symmetric derivative. The force of the mesh is not such a force: with two particles on a line of four cells the derivative of a step of symp1 does not keep the form, for any factors

Theorems: `C93_volume_partial`, `C93_symplectic`, `C93_violated_symplectic`.

### C94 Meshes of complex numbers behave as complex functions (partial)

Method: Parseval for complex functions from the inversion of the transform (C29), the sum over the pieces of the ranks from the tiling. csetitem: the lemma behind C27 without the assumption of a Hermitian field. Violations: a line of four cells on two ranks.

Result: inner products of spectra hold in full; the code violates the rest: cdot of complex meshes does not conjugate (norm of i is -1), csetitem also overwrites the opposite mode and drops the imaginary part of self-opposite modes, readout and paint see only the real part. The partial theorems say what holds instead

Theorems: `C94_inner`, `C94_cdot_partial`, `C94_setitem_partial`, `C94_readout_partial`, `C94_paint`, `C94_violated_cdot`, `C94_violated_setitem`, `C94_violated_readout`.

### C95 check_grad accepts exactly the gradients that agree with finite differences, on all ranks (partial)

Method: The loop over ranks and rows is a program with collective calls; its invariant is that all ranks hold the same pair of lists of derivatives. The code under test, vjp and jvp are programs bound only by a contract. errorstat: bin 4 of the eight edges is the tolerance. Small steps: definition of the derivative; quadratic functions: the central difference is exact. The comparison with the central difference uses 10000 rtol, so for rtol >= 1e-4 a gradient of zero passes (for every function).

Result: verdict, acceptance of right gradients and rejection of wrong ones hold in full for the tolerance the code uses, which is 10000 rtol for the central difference; hence for rtol >= 1e-4 a zero gradient is accepted for every function

Theorems: `C95_verdict`, `C95_accepts`, `C95_accepts_quadratic`, `C95_rejects`, `C95_violated_rtol`.

### C96 A function decorated with FromRoot gives all ranks the value computed on rank 0 (partial)

Method: One step of the collective semantics; a rank that ended while another waits has no run.

Result: the value reaches all ranks; if func raises on rank 0 of several ranks the others wait forever

Theorems: `C96_value`, `C96_violated_exception`.

### C97 The inner product of the vector space of abopt is the sum over all components on all ranks (partial)

Method: As C96. numpy.dot of two arrays with two axes is a product of matrices: it needs as many rows as columns.

Result: complete for arrays with one number for each particle. For arrays of positions the code multiplies matrices: ValueError on all ranks, a deadlock if only some ranks have as many particles as dimensions, and a matrix instead of a number if all have

Theorems: `C97_vectors_partial`, `C97_violated_positions`, `C97_violated_square`, `C97_mixed`, `C97_assertion`.

### C98 cdot of two real fields is the inner product over the mesh (partial)

Method: Model/CdotAny.lean: numpy broadcasting of the local arrays, then allreduce. The sum over the pieces of the ranks from the tiling; violations on 2 x 2 x 2 and 3 x 2 x 2 cells and, for arrays, for all inputs.

Result: complete when both fields are split over the ranks alike, and for operands of another class. An array of the right shape always raises TypeError (all() of a bool). Fields of two meshes with different np are multiplied piece by piece with numpy broadcasting: the result can be wrong on all ranks (16 instead of 8) or one rank raises and the others hang

Theorems: `C98_cdot_partial`, `C98_type`, `C98_violated_array`, `C98_violated_value`, `C98_violated_deadlock`, `C98_violated_broadcast`.

### C99 The N-body example converges to the solution of the equations of motion (partial)

Method: Spec/Converge.lean: MovesOn (the equations of motion), TimeSteps, IsMeshForce (the force by any potential, C92). The program is a run on phase space (C93). One step: the sums of its kicks and drifts are the integrals of the equations of motion but for a fraction q (from the clocks of C87 and, for the factors that freeze a function at a reference time, uniform continuity on a compact interval); error of a step C h (h + q) by Lipschitz bounds, added up by induction over the list of times (discrete Gronwall). The mesh force is bounded and Lipschitz because the weights are finite sums of a Lipschitz kernel that vanishes outside its support. Existence by Picard-Lindelof for (S / l, V) with l large enough that the ball covers the whole interval; uniqueness by Gronwall.

Result: for windows with a Lipschitz kernel that vanishes outside (cic, tsc, pcs; not nearest); partial only because of the restrictions of C23 on the decomposition. Exact arithmetic; quad is the integral

Theorems: `C99_motion`, `C99_rate_partial`, `C99_converges_partial`, `C99_windows`.

### C100 A homogeneous universe stays homogeneous, and what repeats itself in the box goes on to do so (examples/nbody.py) (partial)

Method: Spec/Homogeneous.lean: Repeats (moved by whole cells the bodies are the same bodies again, up to order and whole boxes), Homogeneous, NotAlong. Weights move with the particle (C74), so the density repeats itself, its modes are multiplied by a phase, and the force field repeats itself: the same force at all images (induction over the statements). Along an axis with period one or two cells only modes remain at which the transfer function of the force vanishes (mean and Nyquist frequency). In the homogeneous case all forces are equal and their sum is zero (C87), so they vanish. Grids: a move by cells of the grid is a move by boost times as many cells of the mesh of the forces.

Result: proved for all schemes, factors, times, windows, meshes and ranks; partial: the restrictions of C23 on the decomposition (halo covers the window, plain rank order), whose witnesses apply. No force along an axis: for particles that repeat themselves after one or two cells of the mesh of the forces (boost 1 or 2, the default); for larger boost only the repetition and the homogeneous case. Exact arithmetic.

Theorems: `C100_repeats_partial`, `C100_axis_partial`, `C100_homogeneous_partial`, `C100_grid_partial`, `C100_places`.

### C101 Numbers keep their values whatever numpy types the ranks pass (partial)

Method: Model/Dtype.lean: an array is a numpy type with rational values; astype wraps integers, cuts towards zero and rounds to the digits of a floating point type. exchange and gather are the programs of C04-C06 with the broadcast of the type of rank 0 in front and the sums of bincount in f8. Where all numbers are numbers of the type of rank 0 the results are those without types (refinement); integer sums are exact up to 2^53. Violations: rank 0 with integers cuts all numbers, rank 0 with [] (f8) merges ids above 2^53, sum of one i8 above 2^53, mean of integers raises, the type of the uniform grid is f8 whatever is asked for, half precision puts two particles at one place. Overflow of floats, nan, complex and structured types are not modelled.

Result: The code converts everything to the type of rank 0 and adds up in double precision, so the property fails for mixed types and for integers above 2^53 (negations proved); it holds where all numbers are numbers of the type of rank 0. The type of the uniform grid is always f8 (negation of the documented type proved).

Theorems: `C101_exchange`, `C101_exchange_partial`, `C101_violated_integers`, `C101_violated_ids`, `C101_gather_partial`, `C101_sum_partial`, `C101_violated_sum`, `C101_violated_mean`, `C101_violated_grid_type`, `C101_grid_partial`, `C101_violated_grid_f2`.

### C102 Coordinates and wavenumbers in floating point do not depend on the ranks and are exactly antisymmetric (partial)

Method: Model/CoordsFloat.lean: _init_i_coords and _init_o_coords operation by operation with flRound (round to nearest even, p digits), numpy.pi as the double it is, and a filter with a real function. The index arithmetic is exact below 2^p, so the value is a function of the global index; flRound is odd; errors are accumulated as powers of 1+u and compared with pi through the bounds of Mathlib. Not modelled: complex mesh types, overflow and underflow. Violated on odd meshes as in C26.

Result: Independence of the ranks and order hold for all meshes; accuracy and antisymmetry for even sizes (or away from the index N//2). On odd meshes the index N//2 gets the wrong wavenumber (C26), and a filter by |k| makes a real field complex (negation proved).

Theorems: `C102_ranks`, `C102_accuracy_partial`, `C102_order`, `C102_opposite_partial`, `C102_filter_ranks`, `C102_hermitian_partial`, `C102_violated_odd`.

### C103 White noise is white: independent Gaussian modes of unit power (partial)

Method: Spec/NoiseLaw.lean: IdealNumbers (random choice of the generator; the seeds of the columns are different and the numbers after each of them are independent and uniform), noiseAt (the mode that generateWhitenoise leaves in an element of the local array of a rank). Each mode is a function of one sample, two modes with the same sample are equal or opposite (case analysis of the half planes), and almost surely no number is zero, so samples are consecutive pairs. Pairs of independent numbers are independent (infinite products of measures); the method of Box and Muller is proved with polar coordinates. ideal_exists shows that ideal generators exist. Not covered: how far ranlxd1 and rounding are from ideal.

Result: For a generator whose numbers are real, independent and uniform, on even meshes square in the first two axes. Modes that are their own opposite are real with variance 1/2: expected power 1/2 instead of 1 (negation proved). The real generator ranlxd1 and rounding are not covered.

Theorems: `C103_independent_partial`, `C103_law_partial`, `C103_power_partial`, `C103_unitary_partial`, `C103_violated_selfopposite`.

### C104 Interpolation between mesh and particles is second-order accurate (partial)

Method: Spec/Interp.lean: BoxPeriodic, BoundedCurvature (Taylor remainder of second order around the position), BoundedSlope, Samples (the field holds the function at the cell positions). Readout is written as a mean over the cells of the stencil before the periodic wrapping; the weights are nonnegative, add up to one, have first moment zero and second moment at most 1/4 (cic, tsc) or 1/3 (pcs), so the Taylor remainder bounds the error. Paint by duality. Waves satisfy the hypotheses (C104_wave_partial). Native size of the window only; the restrictions of C23 and C24 on the decomposition.

Result: Error bounds for readout and paint with decompose on any number of ranks, any dimension, in exact arithmetic and for the native size of the window. Partial because of the restrictions of C23 and C24 on the decomposition (plain ranks, halo fits).

Theorems: `C104_readout_partial`, `C104_nearest_partial`, `C104_paint_partial`, `C104_wave_partial`.

### C105 Collective sums in floating point agree on all ranks and are accurate (proved)

Method: Model/FloatSum.lean: numpy.sum and allreduce are two arbitrary summation routines; Spec/FloatSum.lean: FlSum p M s says that s is a result of adding the numbers of the multiset M in some order and some bracketing with every addition rounded (a binary tree), Sums p S says that a routine only gives such results. Trees are composed (sums along the axes inside a rank, then over the ranks), which gives a tree over the global array; error, exactness and sign by induction on the tree. The comment in csum, that summing along the short strides makes results stabler when the number of ranks changes, is only about size of the difference: C105_violated_ranks shows that the split of the mesh changes the result in single precision for every order of summation. No overflow, underflow or nan.

Result: For every order of summation of numpy and MPI; round to nearest at p digits without overflow and underflow. C105_violated_ranks shows that the rounded sum itself does depend on the split over the ranks.

Theorems: `C105_csum`, `C105_error`, `C105_exact`, `C105_cdot`, `C105_cdot_error`, `C105_cnorm`, `C105_cgetitem`, `C105_violated_ranks`.

### C106 The tabulated windows keep the mass up to a stated tolerance, and the wavelets move it (proved)

Method: Model/LanczosTables.lean, AcgTables.lean and WaveletTables.lean hold all the entries of the tables of the code (packed into large numbers), Model/TableWindows.lean the kernels built on them. The kernel of Lean evaluates (decide +kernel on natural numbers, no native code) the sum of the weights at 2049 places of a symmetric window and the largest step between neighbouring entries; a Lipschitz bound carries this to every position (Lemmas/TableSums.lean). For the wavelets the spacing divides the cell, so sums and first moments at the entries determine those in between exactly. The sums of a stencil of native size are these kernel sums (Lemmas/TableStencil.lean), which gives total mass, constants and the centre of mass. C106_violated_acg and C106_violated_centre show the loss of 22 per cent by acg2 and the displacement by more than 4 cells by db20.

Result: For the native size of the windows and in exact arithmetic; decimal constants stand for themselves. The two violation theorems record that acg2 loses more than a fifth of the mass of a particle on a grid point and that db20 puts the mass more than four cells away.

Theorems: `C106_mass`, `C106_mass_wavelet`, `C106_constant`, `C106_constant_wavelet`, `C106_centre`, `C106_violated_acg`, `C106_violated_centre`.

### C107 Gradients read off the mesh are accurate (partial)

Method: Spec/GradAccuracy.lean: Tangent (Taylor remainder of second order around the position), Osculating (of third order). Readout with gradient=d is written as a sum over the cells of the stencil before the periodic wrapping. The derivative weights along axis d add up to zero, have first moment one over the cell size, and for tsc second moment zero; their absolute values add up to at most two over the cell size. The other axes have the moments of C104. So constants and linear functions (quadratic ones for tsc) are exact and the Taylor remainder bounds the error (C107_first_order_partial, C107_second_order_partial). Waves satisfy the hypotheses (C107_wave_partial). Violated: the tuned pcs window lacks the factor scale, so it reads the cell size times the derivative (C107_pcs_partial, C107_violated_pcs); the weights of the plain cubic window are those of the tuned one times the missing factor, which gives second order for the plain windows in any number of dimensions (C107_plain_partial). Native size of the window, tuned windows, one to three dimensions; the restrictions of C24 on the decomposition.

Result: Error bounds for readout(gradient=d) with decompose on any number of ranks, in exact arithmetic: for the tuned windows cic and tsc of native size in one to three dimensions, and for the plain windows quadratic and cubic in any number of dimensions. Partial because the tuned pcs window reads the cell size times the derivative (C107_violated_pcs), and because of the restrictions of C24 on the decomposition (plain ranks, halo fits).

Theorems: `C107_first_order_partial`, `C107_second_order_partial`, `C107_wave_partial`, `C107_plain_partial`, `C107_pcs_partial`, `C107_violated_pcs`.

### C108 Random fields made of white noise are Gaussian, homogeneous and have the power spectrum of the transfer function (partial)

Method: Spec/NoiseReal.lean: NoiseLayout (which element of which rank holds a stored mode), randomField (noiseAt times T through the c2r of Model/Fourier.lean), modePower, correlation. The modes that the code does not store are the conjugates of stored ones and opposite stored modes are conjugates (C39, now for real random numbers), so every cell is a real linear combination of one mode of each opposite pair; these are independent (C103) and normal. Lemmas/GaussField.lean: linear combinations of independent Gaussian pairs are jointly Gaussian, and equal means and covariances make equal joint laws (characteristic functions). Moving the cells multiplies all phases of a mode with the same unit number. Partial: even meshes with equal first two sides; modes that are their own opposite have half of the asked power, which C108_violated_variance shows in real space.

Result: For ideal generators and exact arithmetic, in three dimensions, for N x N x M meshes with N and M even. Partial because modes that are their own opposite have half the power (C103_violated_selfopposite), which makes the variance of white noise N N M - 9/2 instead of N N M - 1 (C108_violated_variance).

Theorems: `C108_gaussian_partial`, `C108_covariance_partial`, `C108_mean_partial`, `C108_homogeneous_partial`, `C108_violated_variance`.

### C109 Painting does not overflow the 32-bit integers of the C code (partial)

Method: Model/IntWindow.lean repeats the functions of Model/Window.lean that compute with int (pmesh_window_info_init, _fill_k, the loop over the points, the SETUP_KERNEL macros and the wrapping loops) with cInt after every operation and conversion: none if the value is outside of -2^31 .. 2^31 - 1, which is undefined in C. Spec/IntWindow.lean: IntsFit. Refinement: under IntsFit every cInt returns its argument, so paintC = paint and readoutC = readout (C109_int_partial); all earlier theorems on paint and readout carry over. C109_mesh_partial derives IntsFit from the distance in boxes. C109_violated_far: beyond 2^31 cells plus the window all painting is undefined, whatever the window. C109_violated_points: a window of 2^31 cells (for instance 1291 cells in 3 dimensions) overflows Npoints, which nothing uses. The pointer offsets are ptrdiff_t and not bounded in the model.

Result: No overflow for all positions, windows and meshes within the stated bounds. Partial because the code does not check them: beyond 2^31 cells from the local mesh (C109_violated_far), or for windows of 2^31 cells (C109_violated_points), the behaviour is undefined.

Theorems: `C109_int_partial`, `C109_mesh_partial`, `C109_violated_far`, `C109_violated_points`.

### C110 preview at another resolution gives all ranks the array of a single process and keeps the mean (partial)

Method: Model/PreviewMesh.lean: the choice of the method (previewMethod) and the composition of upsample or downsample with preview. By the theorems behind C37 and C35 the result is a projection of the sum over the old mesh of values times weights. The mean follows from the weights adding up to one. A constant: the weights move with whole cells of the coarse mesh (weightAt_moved), a displacement by one coarse cell permutes the fine points, so the painted array is invariant under all displacements, hence constant, and its mean is known. Subsampling: nnb and cic have weight one at a mesh point that is hit exactly. Violations: three cells to two (a constant becomes 10/9, 8/9), and an axis refined while another is coarsened (every second cell is empty).

Result: Real fields, exact arithmetic. Partial because of the restrictions of C37 (plain ranks, halo fits, support at most 3 when reading) and C35 (all axes kept in another order), and because painting keeps a constant only if the new numbers of cells divide the old ones (C110_violated_ratio, C110_violated_mixed).

Theorems: `C110_same_partial`, `C110_unknown`, `C110_down_partial`, `C110_down_constant_partial`, `C110_up_partial`, `C110_up_constant_partial`, `C110_subsample_partial`, `C110_violated_ratio`, `C110_violated_mixed`.

### C111 Random particles painted on the mesh have exactly the shot noise of the window (partial)

Method: Spec/ShotNoise.lean: random particles (independent coordinates, uniform in the sense of Mathlib) and the four powers. The transform of the painted field (paint_weightAt of C23) is a sum over the particles of the mass times a product over the axes of amplitudes. An amplitude gets a root of unity from cell to cell, so its mean over the box is a geometric sum times an integral over one cell, which is an integral of a polynomial. Different particles and axes factorise by independence. drawsPos_uniform shows that such random particles exist for all numbers of ranks and particles.

Result: Random particles with fixed masses, exact arithmetic, any number of ranks, any dimension, windows nnb, cic, tsc and pcs (tuned or not) of native size. Partial because of the restrictions of C23 on the decomposition (plain ranks, halo fits). r2c is the exact transform of the field that the ranks hold.

Theorems: `C111_shot_noise_partial`, `C111_shot_power`.

### C112 The leap-frog solver keeps positions, velocities and forces in step and asks for every snapshot once (partial)

Method: Model/Qpm.lean: the generator as the list of its calls and yields, with searchsorted as counting; the while loops with enough rounds. Spec/Qpm.lean: the rules of the clocks (QClock), a predicate on lists of actions that does not know the program. sorted_split cuts the sorted output times into those before, in and after a step, which turns the code with indices into a recursion over the output times (qDrifts_eq); induction over the steps gives the clocks, the end and the snapshots. The number of times a snapshot is asked for is the number of steps that contain it; C112_violated_* are consequences for all parameters.

Result: QPM.run of nbody/qpm.py in exact arithmetic, for all starts, steps and output times. The code violates the property in four ways: output times at a step are written twice, those before the start never, the default aout=[] raises a ValueError after the first force, a start at a >= 1 raises an IndexError. The force itself is a parameter.

Theorems: `C112_leapfrog`, `C112_ends`, `C112_snapshots`, `C112_each_once_partial`, `C112_violated_twice`, `C112_violated_early`, `C112_violated_no_output`, `C112_violated_late`, `C112_drift_wraps`.

### C113 Kicks and drifts of the leap-frog solver use the integrals over cosmic time (proved)

Method: qFactor_eq shows that numpy.trapz over numpy.linspace is the trapezoidal rule of Mathlib, whose error bound needs a bound of the second derivative. The integrand is exp(-p l)/E with p = 1 or 2; E^2 is a sum of exponentials, so the logarithmic derivatives are bounded by constants (expOver2_bound), and values within a step differ by a factor of at most exp(0.35) (expOver_ratio), which makes the error relative. The integral over log a becomes an integral over time by substitution.

Result: Kick and Drift of nbody/qpm.py with the expansion rate of nbody/cosmology.py, over the real numbers (exact arithmetic): numpy.linspace and numpy.trapz are transcribed, Mathlib's error bound of the trapezoidal rule is used with an explicit bound of the second derivative for all parameters.

Theorems: `C113_factors`.

### C114 The growth function solves the equation of linear growth, and the comoving distance is invertible (proved)

Method: The derivatives of Ea, of the integral and of their product are computed (fundamental theorem of calculus); the equation of growth is then an identity of rational functions in a and E. The chain rule along an expansion history gives the equation in time. For Einstein and de Sitter the integral is elementary.

Result: Ea, Dplus, D, Dc, FOmega and disp_to_vel of nbody/cosmology.py over the real numbers. romberg is taken as the exact integral and the splines as the functions they tabulate.

Theorems: `C114_friedmann`, `C114_growth`, `C114_today`, `C114_einstein_de_sitter`, `C114_distance`, `C114_velocity_eds`.

### C115 Modes of painted particles are the true amplitudes plus aliases of known strength (partial)

Method: On one axis, the amplitude of a particle times the wave is a periodic and continuous function of its position (cellWave); its Fourier coefficients are the transform of the window at the aliases (cellWave_coeff, from the mean over shifts of C55), they are summable for cic, tsc and pcs, so the Fourier series converges to the function (waveAmp_hasSum). Products over the axes (hasSum_pi) and sums over the particles (painted_mode of C111) give the theorem. The sine has the same absolute value at all aliases, so that their strengths relative to the wave are powers of k/(k + bN), summed with the values of zeta(2). C115_shot_power is Parseval's identity.

Result: Arbitrary particles and masses, exact arithmetic, any number of ranks, any dimension, windows cic, tsc and pcs of native size (for nnb the sum over aliases does not converge absolutely). Partial because of the restrictions of C23 on the decomposition (plain ranks, halo fits). C115_shot_power holds for all four windows. r2c is the exact transform of the field that the ranks hold.

Theorems: `C115_aliasing_partial`, `C115_compensated_partial`, `C115_shot_power`.

### C116 Values read from a mesh are those of a continuous function (partial)

Method: The field is the inverse transform of its modes (C29), so that the value is the sum over modes times the conjugate of the amplitude of a particle at the position that is read (meshValue_modes); the sum over aliases and the bound of C115 for one particle (particle_hasSum, particle_close) apply. fftfreq_represents shows that the waves of fftfreq meet the hypothesis of the bound.

Result: Any field and any positions, exact arithmetic, any number of ranks, any dimension, windows cic, tsc and pcs of native size. Partial because of the restrictions of C23 on the decomposition. The bound needs at most 314159 cells per side, as C55.

Theorems: `C116_readout_partial`, `C116_interpolates_partial`.

### C117 A particle-mesh solver computes pair interactions that depend on separations only (partial)

Method: The modes after the transfer function and the compensations have the symmetry of a real field (rep_opposite: opposite modes have the same window, also at the Nyquist frequency), so that r2c of the field that is read returns them; C115 bounds the modes of the density and C116 the values read; the two bounds are added. pair_sum exchanges the sums over modes and particles.

Result: decompose, paint, r2c, a transfer function, two compensations, c2r and readout on any number of ranks, exact arithmetic, any dimension, windows cic, tsc and pcs of native size. Partial because of the restrictions of C23 on the decomposition; at most 314159 cells per side. r2c and c2r are the exact transforms of the fields that the ranks hold.

Theorems: `C117_solver_partial`, `C117_pairs_partial`.

### C118 A tabulated power spectrum is interpolated as power laws and normalised to sigma8 (partial)

Method: numpy.interp is transcribed; the segments, the ends and the first point are proved by induction on the table. ballWave is the mean of a plane wave over a ball, as an integral over slices; its closed form is proved with an antiderivative. The integrand of sigma_squared_of_R is bounded by a multiple of 1/(1 + R^2 k^2) (ballWave_far), so that the integral exists; it is positive, so that the normalisation does not divide by zero. The code's window is smaller than the ball's on a set of positive measure, hence C118_violated_sigma8.

Result: PowerSpectrum of nbody/powerspectrum.py over the real numbers, for every table; quad is the exact integral, whose convergence is proved. Violated: the series of WofK for small arguments lacks a factor of 3, so that for every table the variance in balls of radius 8 is larger than the sigma8 that was asked for.

Theorems: `C118_table`, `C118_sigma8`, `C118_window_partial`, `C118_violated_window`, `C118_violated_sigma8`.

### C119 A window is found by its name and keeps its kind when it is resized (proved)

Method: The two dictionaries, the C enumeration and the choice of kernel, fast method and fwindow in pmesh_painter_init are transcribed. Each of the 24 names in both spellings is looked up by evaluation (a finite table, so this is the whole statement), then painting is compared with the plain loop by C20 and the compensation with the Fourier transform by C55. That nothing else is found is a proof about all strings.

Result: All 48 names, all strings, all windows, meshes and particles; exact arithmetic. The names are looked up in the dictionaries of the code; the kernels are those of C14 and C106. Painting is compared for particles of the default size and without derivatives (for others see C20). Integers outside the C enumeration as kind are undefined behaviour and an error in the model.

Theorems: `C119_names`, `C119_only`, `C119_resize`, `C119_fwindow`.

### C120 Line integral convolution with normalize=True follows directions only, along lines of the length asked for (partial)

Method: The normalisation is transcribed with the real square root and put in front of the model of C63. Positive factors cancel cell by cell. The interpolated vector is a mean of unit vectors with the weights of the window, so by the inequality between the square of a mean and the mean of squares its Euclidean length is at most 1; the triangle inequality along the steps gives the length of the line. Reversal exchanges the two directions of the line.

Result: The normalisation of lic with exact square roots: unit vectors, dependence on directions only and length of the lines hold in full (windows nnb, cic, tsc, pcs of native size for the length). Partial: the values on several ranks, and their symmetry when all vectors are reversed, under the restrictions of C63, whose violations apply.

Theorems: `C120_unit`, `C120_directions`, `C120_length`, `C120_integral_partial`.

### C121 A step of the optimiser adds a multiple of the direction, and inner products change along a line as a parabola (partial)

Method: addmul is transcribed with the classes of its operands, elementwise arithmetic of fields and the array plain of real and imaginary parts. For real factors the parts of the result are the parts of the sum; the inner products are sums over the elements of all ranks, which keep linear relations. The violations are computed for arbitrary fields; adding a number other than zero gives the zero mode an imaginary part, so the spectrum is not Hermitian.

Result: Proved for real factors: steps, Hermitian spectra, linearity of dot and the parabola, for all meshes, metrics, powers and numbers of ranks; fields as factors for real fields. The code violates the rest on complex fields, because it works on the real and imaginary parts as separate real numbers: a number a is added to the imaginary parts too, the imaginary part of a number c is dropped, a complex field c multiplies real with real and imaginary with imaginary parts (negations proved); untransposed complex fields raise TypeError. Exact arithmetic; arrays with one number for each particle.

Theorems: `C121_real`, `C121_pointwise`, `C121_complex`, `C121_dot_real`, `C121_dot_complex`, `C121_square_complex`, `C121_dot_array`, `C121_refused`, `C121_violated_number`, `C121_violated_imaginary`, `C121_violated_product`.

### C122 The scale invariant index does not overflow (partial)

Method: The C code is transcribed a second time with a check of each ptrdiff_t and of the argument of abs, and with the cache. Induction over the loops: the cache holds either zero or the right size, and the running index never exceeds the sum of all sizes, which is the number of points of the cube of the shell (Lemmas/Invariant.lean); the recursion has fewer axes and a smaller shell.

Result: All modes, storages and values of maxlength, at most 30 axes, for meshes with at most N points along each of d axes, (N+1)^d < 2^63 (in three dimensions 2097150 points along each axis), N < 2^32: no intermediate result overflows and the result is that of C45 to C47. Partial because the code does not check it: beyond, the first size overflows, even with a small maxlength (C122_violated_large). 64-bit ptrdiff_t, 32-bit int.

Theorems: `C122_exact_partial`, `C122_violated_large`.

### C123 Timers show the time spent in their blocks (partial)

Method: Programs are trees of work, blocks and exceptions. The time inside the blocks of a key is defined on the program alone (Spec/Timers.lean). Induction on the program with the invariants that the timers of other keys are left alone and that the keys are those entered, without repetitions.

Result: All programs of timed blocks, work and exceptions, nested in any way except a key inside a block of the same key. There the code is wrong (C123_violated_nested): the start of the outer block is overwritten. Exact time; the time taken by the timers themselves is left out.

Theorems: `C123_report_partial`, `C123_adds_partial`, `C123_violated_nested`.

### C124 The load of a domain does not overflow and does not depend on which rank holds the particles (partial)

Method: load is transcribed a second time with arrays of int64, which wrap around, and of float64, which are rounded; an empty rank contributes doubles. Induction over the ranks: every partial sum is at most the number of particles so far. The violation is a grid of three domains with 2^32 particles in two of them.

Result: All grids, positions, natural gamma and distributions over ranks, within the bounds 2^63 (every rank has particles) and 2^53 (some rank is empty) on the gamma-th power of the number of particles. Beyond the code is wrong (C124_violated_square): with gamma=2 the load of a domain with 2^32 particles is 0 and loadbalance puts two such domains on one rank; with the same particles on one rank the loads are right. Powers of doubles are correctly rounded; the sum is in the order of the ranks.

Theorems: `C124_integers_partial`, `C124_doubles_partial`, `C124_type`, `C124_violated_square`.

### C125 The offsets of a layout do not overflow (partial)

Method: The prefix sums are those of the model of Layout (C05), stored with a wrap to 32 bits; monotone, so the last one decides.

Result: All numbers of ranks and counts, while the ranks before the last send fewer than 2^31 items to a rank. Beyond, the stored offsets wrap around and are negative (C125_violated_large, for all counts between 2^31 and 2^32), although each rank alone sends few enough items and recvlength is right. numpy adds int32 in 64 bits and stores in 32 bits.

Theorems: `C125_offsets_partial`, `C125_violated_large`.

### C126 The leap-frog solver moves free and uniformly accelerated particles exactly (partial)

Method: The actions of C112 are carried out on particles. Induction along the clocks of C112: the positions are those of the free motion at the clock of positions up to whole boxes, the velocities those of the clock of velocities.

Result: QPM.run of nbody/qpm.py on any number of particles, all starts, steps and output times, with exact factors of kicks and drifts, and to a relative error of 1e-8 with the trapezoidal factors of the code (universes as in C113, steps of at most 0.1). Exact arithmetic. Free motion holds in full. Under a constant acceleration the velocities are right at the ends of steps; in snapshots the code leaves those of the middle of the step (C126_violated_snapshot).

Theorems: `C126_free`, `C126_free_code`, `C126_uniform_partial`, `C126_uniform_code_partial`, `C126_violated_snapshot`.

## Axioms of the theorems

From `#print axioms` on every theorem of the manifest.

**Classical.choice, Quot.sound, propext** (499 theorems): `C01_delivery_partial`, `C01_delivery_open_partial`, `flagsAgree_nonempty`, `C01_violated_smoothing`, `C02_unique_ordered`, `C03_partition`, `C03_isprimary`, `C04_exchange`, `C04_decompose`, `C05_adjoint`, `C06_roundtrip`, `C06_roundtrip_local`, `C06_roundtrip_ufunc_partial`, `C06_violated_ufunc`, `C06_violated_ufunc_error`, `C07_exchange_ok`, `C07_packed_error`, `C08_default_assign`, `C09_loadbalance`, `C09_near_optimal`, `C10_load`, `C10_load_open`, `C11_at_most`, `C11_at_least_partial`, `C11_violated`, `C12_empty_domains_partial`, `C12_violated`, `C12_violated_out_of_bounds`, `C13_packed_partial`, `C14_paint_partial`, `C14_readout_partial`, `C14_paint_cut`, `C14_weight_finite`, `C14_confined_nearest`, `C14_confined_linear`, `C14_confined_quadratic`, `C14_confined_cubic`, `C14_confined_tables`, `C14_violated_hsml`, `C14_violated_wavelet`, `C14_table_interpolates`, `C14_wavelet_interpolates`, `C15_mass_conserved`, `C16_in_array`, `C16_stencil_bounds`, `C16_bytes_partial`, `C17_perm`, `C17_hold`, `C17_linear`, `C17_add_masses`, `C18_box`, `C18_cells`, `C19_adjoint`, `C20_tuned_eq_generic_partial`, `C20_violated_hsml`, `C20_violated_pcs_gradient`, `C20_violated_cic_gradient`, `C21_kernel_tsc`, `C21_kernel_pcs`, `C21_kernel_cic`, `C21_kernel_nnb`, `C21_smooth_tsc`, `C21_smooth_pcs`, `C21_smooth_cic`, `C21_smooth_nnb`, `C21_readout_gradient_partial`, `C21_paint_gradient_partial`, `C21_pcs_gradient`, `C21_violated_pcs`, `C21_kernel_table`, `C21_kernel_wavelet_partial`, `C21_violated_wavelet`, `C22_linear_exact`, `C23_paint_partial`, `C23_violated_hsml`, `C23_violated_scalar_mass`, `C23_violated_halo`, `C23_violated_empty_slabs`, `C24_readout_partial`, `C24_violated_halo`, `C24_violated_hsml`, `C25_paint`, `C25_readout`, `C25_readout_gradient`, `C25_violated_gradient`, `C26_coords_partial`, `C26_opposite_partial`, `C26_violated_odd`, `C26_violated_one`, `C27_csetitem`, `C27_cgetitem`, `C27_csetitem_real`, `C28_cnorm_partial`, `C28_cdot_partial`, `C28_violated_odd`, `C28_violated_imag`, `C29_c2r_r2c`, `C29_r2c_c2r`, `C29_mean`, `C29_complex`, `C30_c2r_partial`, `C30_r2c_partial`, `C30_violated_odd`, `C31_modes_partial`, `C31_any_ratio_partial`, `C31_real_partial`, `C31_violated_same`, `C31_violated_ratio`, `C31_violated_odd`, `C31_violated_mean`, `C31_violated_odd_fails`, `C31_violated_five`, `C32_apply`, `C33_ravel`, `C33_unravel`, `C33_round_trip`, `C34_ids`, `C34_cell`, `C34_partition`, `C35_projection_partial`, `C35_whole`, `C35_violated_order`, `C35_violated_shape`, `C36_ctranspose_partial`, `C36_violated_order`, `C37_downsample_ranks_partial`, `C37_downsample_total_partial`, `C37_upsample_ranks_partial`, `C37_upsample_constant_partial`, `C37_violated_upsample_pcs`, `C38_partition_partial`, `C38_violated_split`, `C39_hermitian`, `C39_violated_odd`, `C40_resolution`, `C41_columns_partial`, `C41_violated_odd`, `C41_violated_equal`, `C41_violated_oblong`, `C41_violated_large`, `C42_mean_partial`, `C42_unitary_partial`, `C42_violated_single`, `C43_range`, `C43_exact`, `C43_nonzero`, `C43_sample`, `C44_recurrence`, `C44_luxury`, `C45_distinct`, `C45_bijection`, `C45_compressed`, `C46_inside_out`, `C46_resolution_partial`, `C47_maxlength_partial`, `C47_zero_length`, `C47_outside`, `C47_outside_compressed`, `C48_agree_partial`, `C48_all_or_none_partial`, `C48_violated_handles`, `C49_order`, `C49_exclusive`, `C49_progress`, `C49_finite`, `C49_barriers`, `C50_sync_result_partial`, `C50_sync_never_stuck_partial`, `C50_sync_terminates`, `C50_pull_holds_partial`, `C50_push_stored_partial`, `C50_sync_untouched_partial`, `C50_violated_cross`, `C50_violated_deadlock`, `C51_numba_paint_partial`, `C51_numba_readout`, `C51_numba_returns`, `C51_numpy_paint`, `C51_numpy_readout`, `C51_numpy_returns`, `C51_violated_noncontiguous`, `C51_violated_zero_period`, `C52_shifted_partial`, `C52_violated`, `C53_residual`, `C53_assign_component_partial`, `C53_decompress_partial`, `C53_paint_factor`, `C53_paint_partial`, `C53_readout`, `C53_lowpass_identity`, `C53_violated_paint`, `C53_violated_assign_component`, `C53_violated_multiply`, `C53_violated_decompress`, `C53_violated_lowpass`, `C53_lowpass_band_partial`, `C53_violated_lowpass_odd`, `C54_csum`, `C55_fwindow`, `C55_bounds`, `C55_compensated`, `C55_modes`, `C55_violated_resized`, `C55_tabulated`, `C56_decompose`, `C56_decompose_open`, `C56_partition`, `C56_isprimary_partial`, `C56_load_partial`, `C56_load_hang`, `C56_exact`, `C56_violated_isprimary`, `C56_violated_load`, `C56_violated_empty_first`, `C57_decompose_partial`, `C57_load_partial`, `C57_violated_decompose`, `C57_violated_load`, `C57_violated_totalsize`, `C58_distinct_partial`, `C58_violated`, `C58_violated_noise`, `C59_violated_resample_untransposed`, `C59_violated_resample_shared`, `C60_violated_alias`, `C60_violated_complex`, `C61_paint_partial`, `C61_readout_partial`, `C61_violated_default`, `C62_paint`, `C62_readout_partial`, `C62_violated_hsml`, `C63_steps`, `C63_integral_partial`, `C63_violated_hsml`, `C63_violated_units`, `C63_violated_vmax`, `C63_violated_empty`, `C64_transfer_partial`, `C64_inspect_partial`, `C64_violated_laplace`, `C64_violated_laplace_empty`, `C64_violated_trilinear`, `C64_violated_inspect`, `C64_violated_odd`, `C65_paint_partial`, `C65_readout_partial`, `C65_violated_tsc`, `C65_violated_order`, `C66_transfer_partial`, `C66_violated_gradient`, `C66_violated_odd`, `C67_noise_partial`, `C67_violated_single`, `C68_exact`, `C68_nearest_partial`, `C68_violated_lost`, `C69_particle`, `C69_field`, `C70_paint`, `C70_linear`, `C70_cic`, `C70_total`, `C70_mass_partial`, `C70_support`, `C70_linear_sums`, `C70_cubic_sums`, `C70_kaiser_sums`, `C70_cubic_mass`, `C70_violated_mass`, `C71_third_law`, `C71_reciprocity`, `C71_momentum`, `C71_no_self_force`, `C71_energy`, `C72_paint`, `C72_readout`, `C72_paint_gradient`, `C72_readout_gradient`, `C72_abopt_paint`, `C72_abopt_paint_partial`, `C72_violated_abopt_paint`, `C72_abopt_readout`, `C72_smooth_tsc`, `C72_smooth_pcs`, `C72_smooth_pcs_unit`, `C72_smooth_cic`, `C73_readout`, `C74_translation_partial`, `C74_mean_partial`, `C74_uniform_grid_partial`, `C75_filter_partial`, `C75_gradient_partial`, `C75_poisson_partial`, `C75_violated_gradient_odd`, `C76_rank_independent_partial`, `C77_cdot_partial`, `C77_cnorm_partial`, `C77_convolution`, `C77_correlation`, `C77_violated_odd`, `C78_violated_no_push`, `C78_violated_pop`, `C79_energy_gradient`, `C80_reshape`, `C80_reshape_twice`, `C80_resize_back`, `C80_violated_dimension_back`, `C81_axes_partial`, `C81_mirror_partial`, `C81_units_partial`, `C81_even_windows`, `C81_violated_nearest`, `C82_projection_partial`, `C82_readout_partial`, `C82_total_partial`, `C82_violated_size`, `C83_noise_partial`, `C84_noise_resample_partial`, `C85_simulation_partial`, `C85_seed_to_final_partial`, `C86_momentum_partial`, `C86_equilibrium_partial`, `C87_ranks_partial`, `C87_momentum_partial`, `C87_clocks`, `C87_totals`, `C87_odd`, `C87_reversible_partial`, `C87_simulate_partial`, `C88_scheme_partial`, `C88_violated_stationary`, `C88_violated_two_times`, `C89_copies`, `C89_cost`, `C89_cost_decompose`, `C90_axes_partial`, `C90_mirror_partial`, `C90_units_partial`, `C90_storage_partial`, `C90_shift_partial`, `C91_factors`, `C91_order`, `C91_growing`, `C92_force_partial`, `C92_potential`, `C92_displacement`, `C92_spectrum`, `C93_volume_partial`, `C93_symplectic`, `C93_violated_symplectic`, `C94_inner`, `C94_cdot_partial`, `C94_setitem_partial`, `C94_readout_partial`, `C94_paint`, `C94_violated_cdot`, `C94_violated_setitem`, `C94_violated_readout`, `C95_verdict`, `C95_accepts`, `C95_accepts_quadratic`, `C95_rejects`, `C95_violated_rtol`, `C96_value`, `C97_violated_positions`, `C97_violated_square`, `C97_mixed`, `C98_cdot_partial`, `C98_violated_value`, `C99_motion`, `C99_rate_partial`, `C99_converges_partial`, `C99_windows`, `C100_repeats_partial`, `C100_axis_partial`, `C100_homogeneous_partial`, `C100_grid_partial`, `C100_places`, `C101_exchange`, `C101_exchange_partial`, `C101_violated_integers`, `C101_violated_ids`, `C101_gather_partial`, `C101_sum_partial`, `C101_violated_sum`, `C101_violated_mean`, `C101_grid_partial`, `C101_violated_grid_f2`, `C102_ranks`, `C102_accuracy_partial`, `C102_order`, `C102_opposite_partial`, `C102_filter_ranks`, `C102_hermitian_partial`, `C102_violated_odd`, `C103_independent_partial`, `C103_law_partial`, `C103_power_partial`, `C103_unitary_partial`, `C103_violated_selfopposite`, `C104_readout_partial`, `C104_nearest_partial`, `C104_paint_partial`, `C104_wave_partial`, `C105_csum`, `C105_error`, `C105_exact`, `C105_cdot`, `C105_cdot_error`, `C105_cnorm`, `C105_cgetitem`, `C105_violated_ranks`, `C106_mass`, `C106_mass_wavelet`, `C106_constant`, `C106_constant_wavelet`, `C106_centre`, `C106_violated_acg`, `C106_violated_centre`, `C107_first_order_partial`, `C107_second_order_partial`, `C107_wave_partial`, `C107_plain_partial`, `C107_pcs_partial`, `C107_violated_pcs`, `C108_gaussian_partial`, `C108_covariance_partial`, `C108_mean_partial`, `C108_homogeneous_partial`, `C108_violated_variance`, `C109_int_partial`, `C109_mesh_partial`, `C109_violated_far`, `C109_violated_points`, `C110_same_partial`, `C110_unknown`, `C110_down_partial`, `C110_down_constant_partial`, `C110_up_partial`, `C110_up_constant_partial`, `C110_subsample_partial`, `C110_violated_ratio`, `C110_violated_mixed`, `C111_shot_noise_partial`, `C111_shot_power`, `C112_leapfrog`, `C112_ends`, `C112_snapshots`, `C112_each_once_partial`, `C112_violated_twice`, `C112_violated_early`, `C112_violated_no_output`, `C112_violated_late`, `C112_drift_wraps`, `C113_factors`, `C114_friedmann`, `C114_growth`, `C114_today`, `C114_einstein_de_sitter`, `C114_distance`, `C114_velocity_eds`, `C115_aliasing_partial`, `C115_compensated_partial`, `C115_shot_power`, `C116_readout_partial`, `C116_interpolates_partial`, `C117_solver_partial`, `C117_pairs_partial`, `C118_table`, `C118_sigma8`, `C118_window_partial`, `C118_violated_window`, `C118_violated_sigma8`, `C119_names`, `C119_only`, `C119_resize`, `C119_fwindow`, `C120_unit`, `C120_directions`, `C120_length`, `C120_integral_partial`, `C121_dot_real`, `C121_dot_array`, `C121_violated_number`, `C122_exact_partial`, `C122_violated_large`, `C124_integers_partial`, `C124_doubles_partial`, `C124_type`, `C124_violated_square`, `C125_offsets_partial`, `C125_violated_large`, `C126_free`, `C126_free_code`, `C126_uniform_partial`, `C126_uniform_code_partial`, `C126_violated_snapshot`.

**Quot.sound, propext** (57 theorems): `flagsAgree_identity`, `C04_layout_ok`, `C07_exchange_error`, `C07_gather_error`, `C07_violated_packed`, `C07_violated_shape`, `C14_contiguous_distinct`, `C16_violated_half`, `C17_append`, `C23_broadcast`, `C26_nyquist`, `C33_unravel_length`, `C46_violated_odd`, `C50_images`, `C50_violated_race`, `C53_assign`, `C53_add`, `C53_multiply`, `C53_to_scalar`, `C53_transfer`, `C57_totalsize_partial`, `C59_r2c`, `C59_c2r`, `C59_cast`, `C59_resample_partial`, `C60_partial`, `C60_inplace_once`, `C64_violated_powerspectrum`, `C68_safe`, `C70_returns`, `C77_cdot_vjp`, `C78_refines`, `C78_push_pop`, `C78_force_loop`, `C80_reshape_nothing_partial`, `C80_respawn`, `C80_violated_plan`, `C80_violated_one_axis`, `C96_violated_exception`, `C97_vectors_partial`, `C97_assertion`, `C98_type`, `C98_violated_array`, `C98_violated_deadlock`, `C98_violated_broadcast`, `C101_violated_grid_type`, `C121_real`, `C121_pointwise`, `C121_complex`, `C121_dot_complex`, `C121_square_complex`, `C121_refused`, `C121_violated_imaginary`, `C121_violated_product`, `C123_report_partial`, `C123_adds_partial`, `C123_violated_nested`.

**propext** (5 theorems): `C09_loadbalance_small`, `C13_violated_empty`, `C46_violated_nyquist`, `C47_violated_zero`, `C59_roundtrip`.

**none** (3 theorems): `C52_violated_readout`, `C65_violated_name`, `C78_pop_empty`.
