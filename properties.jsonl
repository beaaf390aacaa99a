{"id": "C01", "title": "Ghost delivery reaches exactly the ranks whose domain meets the smoothing region", "statement": "After decompose(pos, smoothing) on a periodic grid, a rank is on a particle's delivery list if and only if one of the domains assigned to it contains (modulo the box) a point of the closed box [x-s, x+s].", "quantifier": "every grid of sorted edges in any number of dimensions, every domain-to-rank assignment, every position (inside or outside the box) and every per-axis smoothing", "why_tests_cant": "positions, edges and smoothing lengths are continuous; tests sample a handful of grids, while a missed ghost appears only for particular alignments of particle, edge and wrap-around", "anchors": ["pmesh/domain.py:GridND.decompose", "pmesh/_domain.pyx:gridnd_fill"]}
{"id": "C02", "title": "At most one copy per rank, in a deterministic order", "statement": "A layout sends each particle to a given rank at most once, even if the particle overlaps many domains of that rank, and the particles sent to one rank keep their original order. The counting pass and the filling pass agree, every slot of the send list is written exactly once and no write leaves it.", "quantifier": "every particle set, grid, assignment and smoothing", "why_tests_cant": "agreement of two passes over data-dependent patches is a loop invariant over all inputs", "anchors": ["pmesh/domain.py:GridND.decompose", "pmesh/_domain.pyx:gridnd_fill"]}
{"id": "C03", "title": "Zero smoothing partitions the particles; primary test agrees", "statement": "With smoothing 0 every particle is delivered to exactly one rank, and isprimary evaluated on a rank for that particle is true exactly on the rank the particle is delivered to.", "quantifier": "every periodic grid without empty domains, every position on the real line per axis, every assignment", "why_tests_cant": "ties on edges and wrap-around happen on a measure-zero set that sampled tests do not hit", "anchors": ["pmesh/domain.py:GridND.decompose", "pmesh/domain.py:GridND.isprimary", "pmesh/domain.py:GridND._update_primary_regions"]}
{"id": "C04", "title": "Exchange delivers the right rows in the right order", "statement": "exchange(data) returns on rank r the concatenation, over source ranks in increasing order, of the source rows listed for r, in the order of the source; two arrays exchanged through the same layout stay row aligned.", "quantifier": "every number of ranks, every send list per rank (including empty ones) and every payload", "why_tests_cant": "offset arithmetic of an all-to-all over arbitrary counts; tests run a few ranks with a few rows", "anchors": ["pmesh/domain.py:Layout.__init__", "pmesh/domain.py:Layout.exchange", "pmesh/domain.py:Layout._exchange"]}
{"id": "C05", "title": "Sum-gather is the adjoint of exchange", "statement": "For every particle array u and ghost array v, summing over all ranks, <exchange(u), v> = <u, gather(v, 'sum')>; gather(v,'sum') at a particle is the sum of v over all its copies.", "quantifier": "every rank count, layout, particle data and ghost data", "why_tests_cant": "an identity over all data and layouts", "anchors": ["pmesh/domain.py:Layout.gather", "pmesh/domain.py:Layout._exchange", "pmesh/domain.py:bincountv"]}
{"id": "C06", "title": "Exchange followed by gather returns the particle data", "statement": "For a particle that has at least one copy, gather(exchange(u), mode) returns u for modes 'any', 'mean' and numpy.fmax/fmin-like reductions, count*u for 'sum', and the value of the local copy for 'local'; 'all' lists every copy in send order.", "quantifier": "every rank count, layout and data; also particles with zero copies", "why_tests_cant": "depends on copy multiplicities produced by arbitrary decompositions, including particles with no copy at all", "anchors": ["pmesh/domain.py:Layout.gather"]}
{"id": "C07", "title": "Length errors are collective", "statement": "If the array passed to exchange (or gather) has the wrong length on at least one rank then every rank raises ValueError, and otherwise no rank does; no rank is left waiting in the all-to-all.", "quantifier": "every assignment of array lengths to ranks", "why_tests_cant": "a deadlock shows only for error patterns that differ among ranks; tests use uniform failures", "anchors": ["pmesh/domain.py:Layout._exchange", "pmesh/domain.py:Layout.gather"]}
{"id": "C08", "title": "Default domain assignment is total and balanced", "statement": "With no explicit assignment every domain is owned by exactly one existing rank, owners are non-decreasing in the domain index, and if there are at least as many domains as ranks the numbers of domains on two ranks differ by at most one.", "quantifier": "every number of domains and every number of ranks", "why_tests_cant": "integer-division block boundaries must be right for all pairs", "anchors": ["pmesh/domain.py:GridND.__init__"]}
{"id": "C09", "title": "Load balancing keeps all domains and obeys the greedy bound", "statement": "loadbalance assigns every domain to a valid rank, the heaviest rank carries at most the average load plus the largest single domain load, and no choice of another rank for the last domain placed on the heaviest rank would have been lighter at that time. The heaviest rank carries at most 4/3 - 1/(3n) times what the heaviest of the n ranks carries under any other assignment. If there are no more domains than ranks nothing changes.", "quantifier": "every list of non-negative loads and every rank count", "why_tests_cant": "a bound over all load vectors", "anchors": ["pmesh/domain.py:GridND.loadbalance"]}
{"id": "C10", "title": "Domain load counts every particle once, in the domain that contains it", "statement": "load(pos, gamma=1) summed over all domains equals the global number of particles and the entry of a domain equals the number of particles whose wrapped position lies in the domain.", "quantifier": "every periodic grid, every distribution of particles to ranks", "why_tests_cant": "edge ties and wrap-around", "anchors": ["pmesh/domain.py:GridND.load"]}
{"id": "C11", "title": "The uniform grid always has at least one domain and never more domains than ranks", "statement": "GridND.uniform(BoxSize, comm) returns a decomposition with 1 <= number of domains <= comm.size.", "quantifier": "every positive BoxSize and every communicator size", "why_tests_cant": "truncation of a real power decides the shape; the failing boxes are anisotropic or far from unit size", "anchors": ["pmesh/domain.py:GridND.uniform"]}
{"id": "C12", "title": "Empty domains neither receive nor suppress particles", "statement": "A domain of zero width receives no particle, and its presence changes nothing for the delivery to other domains, for any assignment of domains to ranks.", "quantifier": "every grid with repeated edges, every assignment", "why_tests_cant": "needs the combination of empty domains with a non-identity assignment; tests have only the identity", "anchors": ["pmesh/_domain.pyx:gridnd_fill", "pmesh/domain.py:GridND.__init__"]}
{"id": "C13", "title": "Packed exchange equals separate exchanges", "statement": "exchange(a, b, ..., pack=True) returns the same arrays as pack=False.", "quantifier": "every number of arrays, every layout, every content", "why_tests_cant": "identity over all data", "anchors": ["pmesh/domain.py:Layout.exchange", "pmesh/domain.py:pack_arrays"]}
{"id": "C14", "title": "Painting deposits the periodised kernel", "statement": "paint of particles on a (local part of a) mesh adds to each cell c exactly sum over particles of mass times the product over axes of the sum, over all integers n congruent to c modulo the period, of the window evaluated at (position - n); nothing outside the local array is touched.", "quantifier": "every position, mass, window size, dimension, period (larger or smaller than the support), local offset and local size", "why_tests_cant": "floor/shift/left bookkeeping and wrap loops over a continuum of positions", "anchors": ["pmesh/_window_imp.c:_fill_k", "pmesh/_window_imp.c:pmesh_window_info_init", "pmesh/_window_generics.h:_generic_paint", "pmesh/_window.pyx:ResampleWindow.paint"]}
{"id": "C15", "title": "Mass conservation of the B-spline windows", "statement": "On a fully periodic mesh the total of the painted field increases by exactly the total mass for nnb, cic, tsc and pcs at their native support.", "quantifier": "every particle set, any dimension, any mesh size including meshes smaller than the window", "why_tests_cant": "partition of unity is an identity over all real offsets", "anchors": ["pmesh/_window_imp.c:_nearest_kernel,_linear_kernel,_quadratic_kernel,_cubic_kernel", "pmesh/_window_generics.h:_generic_paint"]}
{"id": "C16", "title": "Painting and readout never touch memory outside the local array", "statement": "Every element address accessed while painting or reading lies within the given strided array, for any position, and cells outside the local box are skipped in non-periodic axes.", "quantifier": "every position, period, offset and local size", "why_tests_cant": "memory safety over unbounded positions", "anchors": ["pmesh/_window_generics.h:_generic_paint", "pmesh/_window_generics.h:_generic_readout", "pmesh/_window_tuned_cic.h", "pmesh/_window_generics.h:ACCESS2,ACCESS3"]}
{"id": "C17", "title": "Painting is additive, linear in mass and independent of particle order", "statement": "Painting a concatenation of particle sets equals painting them one after another; permuting particles does not change the result; scaling masses scales the deposit; previous content is kept (hold).", "quantifier": "every particle list, permutation, mass factor and starting mesh", "why_tests_cant": "universally quantified algebraic law (exact arithmetic)", "anchors": ["pmesh/_window_generics.h:_generic_paint", "pmesh/pm.py:ParticleMesh.paint"]}
{"id": "C18", "title": "Periodic images are indistinguishable", "statement": "Moving a particle by an integer number of box lengths along any axis changes neither the painted mesh nor the readout; moving by one cell shifts the painted mesh by one cell.", "quantifier": "every position, every integer number of periods, every window and size", "why_tests_cant": "unbounded wrap loops", "anchors": ["pmesh/_window_generics.h:_generic_paint", "pmesh/_window_generics.h:_generic_readout", "pmesh/_window_imp.c:_fill_k"]}
{"id": "C19", "title": "Readout is the adjoint of paint", "statement": "For every field f and particle masses m at the same positions, sum_p m_p*readout(f)_p = sum_c f_c*paint(m)_c, for values and for each gradient direction.", "quantifier": "all fields, masses, positions, windows, periods and local boxes", "why_tests_cant": "identity over all inputs; the two loops are separate code", "anchors": ["pmesh/_window_generics.h:_generic_paint", "pmesh/_window_generics.h:_generic_readout"]}
{"id": "C20", "title": "Tuned windows agree with the generic ones", "statement": "The tuned nnb/cic/tsc/pcs painters and readouts give the same result as the untuned windows for the same support, smoothing scale (hsml), gradient and transform.", "quantifier": "every position, hsml, gradient axis, scale, 1/2/3 dimensions", "why_tests_cant": "two code paths over a continuum; existing tests compare at hsml=1 and for values only", "anchors": ["pmesh/_window_tuned_nnb.h", "pmesh/_window_tuned_cic.h", "pmesh/_window_tuned_tsc.h", "pmesh/_window_tuned_pcs.h", "pmesh/_window_imp.c:pmesh_painter_paint"]}
{"id": "C21", "title": "Gradient windows are the derivatives of the windows", "statement": "The gradient kernel of each analytic window is the derivative of its value kernel (everywhere for tsc and pcs, away from kinks for nnb and cic), so readout(gradient=d) is the derivative of readout with respect to position d.", "quantifier": "every real position", "why_tests_cant": "derivative identity on the reals", "anchors": ["pmesh/_window_imp.c:_linear_diff,_quadratic_diff,_cubic_diff", "pmesh/_window_imp.c:_fill_k"]}
{"id": "C22", "title": "Interpolation is exact for constant and linear fields", "statement": "Reading out a constant field returns the constant, and reading out a field linear in the (unwrapped) coordinate with cic, tsc or pcs returns its value at the position.", "quantifier": "every position and slope", "why_tests_cant": "moment identities of the kernels over all offsets", "anchors": ["pmesh/_window_imp.c:_linear_kernel,_quadratic_kernel,_cubic_kernel", "pmesh/_window_generics.h:_generic_readout"]}
{"id": "C23", "title": "Parallel painting equals serial painting", "statement": "paint with layout=decompose(pos) on any number of ranks leaves on each rank exactly the local part of the mesh a single process would compute, with no double counting and no missing ghost.", "quantifier": "every rank count, particle distribution over ranks, window, position, mesh and slab partition", "why_tests_cant": "combination of routing, wrap-around and window support; errors show only for special alignments", "anchors": ["pmesh/pm.py:ParticleMesh.paint", "pmesh/pm.py:ParticleMesh.decompose", "pmesh/domain.py:GridND.decompose", "pmesh/domain.py:Layout.exchange"]}
{"id": "C24", "title": "Parallel readout equals serial readout", "statement": "readout with layout=decompose(pos) on any number of ranks returns for each particle the value a single process would read from the global mesh.", "quantifier": "same as C23", "why_tests_cant": "same as C23", "anchors": ["pmesh/pm.py:RealField.readout", "pmesh/domain.py:Layout.gather"]}
{"id": "C25", "title": "paint and readout derivatives are mutually adjoint", "statement": "paint_jvp and paint_vjp are adjoint to each other, and so are readout_jvp and readout_vjp, with respect to both mass (or field) and position arguments, with and without a layout.", "quantifier": "all tangent and cotangent vectors, positions, masses and fields", "why_tests_cant": "bilinear identity over all inputs", "anchors": ["pmesh/pm.py:ParticleMesh.paint_jvp", "pmesh/pm.py:ParticleMesh.paint_vjp", "pmesh/pm.py:RealField.readout_vjp", "pmesh/pm.py:RealField.readout_jvp"]}
{"id": "C26", "title": "Coordinates are in range and congruent to the mesh index", "statement": "The relative coordinate and the wavenumber of mesh index i are the representative of i modulo Nmesh inside [-Nmesh/2, Nmesh/2), times the cell size; the wavenumber of the conjugate index is the negative, except at Nyquist.", "quantifier": "every mesh size and every index", "why_tests_cant": "odd sizes and the Nyquist index; tests use even cubes", "anchors": ["pmesh/pm.py:ParticleMesh._init_i_coords", "pmesh/pm.py:ParticleMesh._init_o_coords"]}
{"id": "C27", "title": "Setting a complex mode keeps the field Hermitian and reads back", "statement": "csetitem on any collective index keeps a Hermitian field Hermitian, cgetitem afterwards returns the value csetitem returned, the conjugate mode is updated consistently, all other modes are unchanged, on any partition of the mesh over ranks.", "quantifier": "every Hermitian field, index (also negative), value and ownership of modes by ranks", "why_tests_cant": "self-conjugate modes, negative indices and modes whose conjugate lives on another rank", "anchors": ["pmesh/pm.py:Field.csetitem", "pmesh/pm.py:Field.cgetitem", "pmesh/pm.py:Field._ctol"]}
{"id": "C28", "title": "Norms of compressed spectra equal the full-spectrum sums", "statement": "cnorm and cdot of a Hermitian-compressed field equal the sums over the full spectrum.", "quantifier": "every Hermitian spectrum of any mesh size, even or odd", "why_tests_cant": "existing tests use even meshes; the weight of the last plane depends on parity", "anchors": ["pmesh/pm.py:BaseComplexField._expand_hermitian", "pmesh/pm.py:BaseComplexField.cnorm", "pmesh/pm.py:BaseComplexField.cdot"]}
{"id": "C29", "title": "r2c and c2r are inverse with the mean in the zero mode", "statement": "c2r(r2c(f)) = f for every real field, r2c(c2r(F)) = F for every Hermitian spectrum, and the zero mode of r2c(f) is the mean of f.", "quantifier": "every mesh size, every field", "why_tests_cant": "identity over all fields", "anchors": ["pmesh/pm.py:RealField.r2c", "pmesh/pm.py:BaseComplexField.c2r"]}
{"id": "C30", "title": "Transforms' vjp are their adjoints", "statement": "<c2r(F), v> = <F, c2r_vjp(v)> and <r2c(f), G> = <f, r2c_vjp(G)> in the inner products cdot of each space.", "quantifier": "all fields and cotangents", "why_tests_cant": "bilinear identity", "anchors": ["pmesh/pm.py:RealField.c2r_vjp", "pmesh/pm.py:BaseComplexField.r2c_vjp"]}
{"id": "C31", "title": "Fourier resampling keeps common modes and zeroes the rest", "statement": "resample to another mesh copies each mode whose frequency is strictly below the Nyquist of both meshes and leaves zero in all others; resampling to the same mesh returns the same field.", "quantifier": "every pair of mesh sizes in every dimension, every field", "why_tests_cant": "index arithmetic over all pairs of sizes; errors appear only for particular ratios", "anchors": ["pmesh/pm.py:Field.resample", "pmesh/pm.py:reindex", "pmesh/pm.py:build_index"]}
{"id": "C32", "title": "apply visits every mesh point exactly once with its own coordinates", "statement": "Field.apply(func) for a pointwise func sets each local element to func(coordinates of that element, element), independent of memory order of the axes.", "quantifier": "every local shape, every axis order in memory", "why_tests_cant": "iteration order depends on strides", "anchors": ["pmesh/pm.py:Field.apply", "pmesh/pm.py:slabiter", "pmesh/pm.py:xslabiter"]}
{"id": "C33", "title": "ravel and unravel are global C-order serialisations", "statement": "The concatenation over ranks of ravel() is the global mesh in C order independent of how the mesh is split, and unravel(ravel()) is the identity.", "quantifier": "every partition of every mesh, any dimension", "why_tests_cant": "depends on a distributed sort for all partitions", "anchors": ["pmesh/pm.py:Field.ravel", "pmesh/pm.py:Field.unravel"]}
{"id": "C34", "title": "The uniform particle grid has unique ids and one particle per cell", "statement": "generate_uniform_particle_grid(return_id=True) yields on all ranks together each id in [0, prod Nmesh) exactly once, id being the C-order index of the particle's cell, for any partition.", "quantifier": "every mesh shape and every tiling of it by ranks", "why_tests_cant": "all partitions", "anchors": ["pmesh/pm.py:ParticleMesh.generate_uniform_particle_grid"]}
{"id": "C35", "title": "preview returns the global array or projection on every rank", "statement": "preview(axes=...) returns on every rank the same array: the sum of the global field over the omitted axes, with the kept axes in the requested order.", "quantifier": "every partition, axes selection and field", "why_tests_cant": "axis permutations times partitions", "anchors": ["pmesh/pm.py:Field.preview"]}
{"id": "C36", "title": "Distributed transpose", "statement": "ctranspose(axes) returns the field with out[i[axes]] = in[i] on any partition.", "quantifier": "every permutation, mesh shape, partition and field", "why_tests_cant": "goes through paint/readout and two decompositions", "anchors": ["pmesh/pm.py:RealField.ctranspose"]}
{"id": "C37", "title": "Down- and up-sampling keep mass/mean and do not depend on the number of ranks", "statement": "downsample keeps the total (or with keep_mean the mean) of the field with a mass-conserving window, upsample/downsample on many ranks give the serial result for every supported window, and constants are preserved by upsample.", "quantifier": "every pair of meshes, window and partition", "why_tests_cant": "needs window supports larger than the ones tested, on several ranks", "anchors": ["pmesh/pm.py:ParticleMesh.upsample", "pmesh/pm.py:ParticleMesh.downsample"]}
{"id": "C38", "title": "White noise is independent of the domain decomposition", "statement": "The value generate_whitenoise puts in a mode depends only on seed, mesh and mode, not on which rank stores it or on the local box; every stored mode is written.", "quantifier": "every partition of the complex mesh into local boxes, compressed or full", "why_tests_cant": "all partitions; tests compare 1 process against few", "anchors": ["pmesh/_whitenoise_generics.h:_generic_fill", "pmesh/_whitenoise_imp.c"]}
{"id": "C39", "title": "White noise is Hermitian", "statement": "Modes k and -k of the generated field are complex conjugates, self-conjugate modes are real.", "quantifier": "every even cubic mesh, every seed, compressed and full storage", "why_tests_cant": "needs all modes of all meshes and all seeds", "anchors": ["pmesh/_whitenoise_generics.h:_generic_fill", "pmesh/_whitenoise_imp.c:SETSEED,GETSEED,SAMPLE"]}
{"id": "C40", "title": "White noise is resolution independent", "statement": "With the same seed, a mode strictly below the Nyquist frequency of two even meshes has the same value in both.", "quantifier": "every pair of even cubic meshes, every seed, every common mode", "why_tests_cant": "relation between two runs of arbitrary size", "anchors": ["pmesh/_whitenoise_generics.h:_generic_fill"]}
{"id": "C41", "title": "Every column of the mesh gets its own random stream", "statement": "The seed table assigns to each (i,j) column the seed of a distinct draw of the generator; no column is left unseeded and none is seeded twice.", "quantifier": "every mesh shape", "why_tests_cant": "coverage of a shell walk; tests use cubic even meshes", "anchors": ["pmesh/_whitenoise_generics.h:_generic_fill", "pmesh/_whitenoise_imp.c:SETSEED"]}
{"id": "C42", "title": "Unitary white noise has unit amplitude; zero mode is the requested mean", "statement": "With unitary=True every mode except the zero mode has amplitude one, self-conjugate ones are real; the zero mode equals the requested mean.", "quantifier": "every mesh, seed and mean", "why_tests_cant": "all modes", "anchors": ["pmesh/_whitenoise_generics.h:_generic_fill", "pmesh/pm.py:ParticleMesh.generate_whitenoise"]}
{"id": "C43", "title": "Random numbers stay in [0,1)", "statement": "Every number returned by the generator is in [0,1) and an exact multiple of 2^-48, after any number of calls and any seed.", "quantifier": "every seed and every number of draws", "why_tests_cant": "unbounded number of draws", "anchors": ["pmesh/gsl/ranlxd.c:ranlxd_get_double,increment_state,ranlxd_set_lux"]}
{"id": "C44", "title": "The unrolled generator is the subtract-with-borrow recurrence", "statement": "The optimised state update performs exactly the number of single steps of the lagged subtract-with-borrow recurrence that the luxury level prescribes and yields the same state as doing them one at a time.", "quantifier": "every reachable state", "why_tests_cant": "equality of an unrolled loop to its specification in all states", "anchors": ["pmesh/gsl/ranlxd.c:increment_state,RANLUX_STEP"]}
{"id": "C45", "title": "The invariant index is a bijection", "statement": "get_index maps the modes of an even cubic mesh one-to-one onto 0..N^d-1 (with compression onto the first (N/2+1) half), and distinct modes of any mesh get distinct indices.", "quantifier": "every dimension and mesh size", "why_tests_cant": "recursion over shells and faces for all sizes", "anchors": ["pmesh/_invariant_imp.c:pmesh_get_invariant_index", "pmesh/_invariant.pyx:get_index"]}
{"id": "C46", "title": "The invariant index is inside-out and resolution independent", "statement": "A mode with smaller maximum-norm has a smaller index, and the index of a mode does not depend on the mesh size.", "quantifier": "every pair of modes, dimension and pair of mesh sizes", "why_tests_cant": "all sizes", "anchors": ["pmesh/_invariant_imp.c:pmesh_get_invariant_index", "pmesh/_invariant.pyx:get_index"]}
{"id": "C47", "title": "maxlength truncates exactly; out-of-range modes give -1", "statement": "With maxlength=M the result is the index if it is below M and -1 otherwise; modes outside the mesh give -1.", "quantifier": "every mode, mesh and maxlength", "why_tests_cant": "early exits inside a recursion", "anchors": ["pmesh/_invariant_imp.c:pmesh_get_invariant_index", "pmesh/_invariant.pyx:get_index"]}
{"id": "C48", "title": "All ranks agree on reusing a cached mesh plan", "statement": "In any history of ParticleMesh constructions and garbage collections happening at different times on different ranks, a construction either reuses on all ranks plans created by the same earlier construction or creates a new plan on all ranks.", "quantifier": "every interleaving of constructions and per-rank collections", "why_tests_cant": "garbage collection timing is a schedule", "anchors": ["pmesh/pm.py:ParticleMesh.__init__", "pmesh/pm.py:_pm_cache"]}
{"id": "C49", "title": "Rotator runs the bodies one rank at a time without deadlock", "statement": "Code inside a Rotator block executes on one rank at a time in rank order, and every rank passes the same number of barriers so nobody blocks forever.", "quantifier": "every number of ranks and every schedule", "why_tests_cant": "mutual exclusion over all interleavings", "anchors": ["pmesh/tools.py:Rotator"]}
{"id": "C50", "title": "Coarray transfers deliver to the operation that asked", "statement": "After sync, each pull holds the requested remote data and each push is stored at the requested place.", "quantifier": "every set of pending operations on every number of ranks, every message schedule", "why_tests_cant": "message matching under all orders", "anchors": ["pmesh/coarray.py:coarray.sync,_solve,Pull,Push"]}
{"id": "C51", "title": "The pure-python CIC agrees with the compiled CIC window", "statement": "pmesh.cic paint/readout deposit and interpolate with the same weights as the 'cic' window on a periodic mesh.", "quantifier": "every position, mass, period and dimension", "why_tests_cant": "all positions", "anchors": ["pmesh/cic.py:paint,readout", "pmesh/_cic.py", "pmesh/_window_tuned_cic.h"]}
{"id": "C52", "title": "The pure-python TSC agrees with the compiled TSC window", "statement": "pmesh.tsc.paint deposits the same mass in the same cells as the 'tsc' window.", "quantifier": "every position and mass", "why_tests_cant": "all positions; the module has no tests", "anchors": ["pmesh/tsc.py:paint"]}
{"id": "C53", "title": "Automatic-differentiation operators have matching jvp and vjp", "statement": "For each operator registered in pmesh.abopt the registered jvp and vjp are adjoint, i.e. <jvp(x_), v> = <x_, vjp(v)>.", "quantifier": "all tangents and cotangents", "why_tests_cant": "bilinear identity", "anchors": ["pmesh/abopt.py"]}
{"id": "C54", "title": "Collective sum is the sum of the global field", "statement": "csum() returns on every rank the sum over all elements of the global field, whatever the memory order of the local arrays; cmean() is that divided by the number of elements.", "quantifier": "every partition, memory order and field", "why_tests_cant": "all partitions", "anchors": ["pmesh/pm.py:RealField.csum,cmean"]}
{"id": "C55", "title": "get_fwindow is the Fourier transform of the window and compensation undoes it", "statement": "window.get_fwindow(w) is the continuous Fourier transform of the window used by paint, resized to any support; dividing the painted field by it (get_compensation) gives back the Fourier amplitudes of the particles, up to aliasing, i.e. exactly after averaging over the position of the grid; it never divides by zero on the frequencies of a mesh.", "quantifier": "every window with closed form, every support, every frequency, mesh, stride, affine transform and particle set", "why_tests_cant": "integrals over all frequencies and all grid offsets", "anchors": ["pmesh/window.py:FindResampler,ResampleWindow.get_fwindow,get_compensation,Affine", "pmesh/_window_imp.c:pmesh_painter_get_fwindow", "pmesh/_window_generics.h"]}
{"id": "C56", "title": "Domain decomposition is robust against floating-point rounding", "statement": "With IEEE rounding after each operation GridND.decompose still delivers each particle to every rank its smoothing region reaches (up to a few roundings), to exactly one rank without smoothing; isprimary is true on exactly that rank; load counts every particle and completes on all ranks, in particular for positions just below zero.", "quantifier": "every rounding mode and precision, every grid, smoothing and position representable in the format", "why_tests_cant": "edge cases of rounding occur for particular bit patterns only", "anchors": ["pmesh/domain.py:GridND.decompose,isprimary,load"]}
{"id": "C57", "title": "Machine integers suffice for the domain decomposition", "statement": "GridND.decompose and load store domain numbers in 16 bits and the number of copies in 32 bits; for every grid and every number of particles that the code accepts the result is the same as with integers of any size.", "quantifier": "every number of domains per axis, every number of particles and copies", "why_tests_cant": "needs grids of more than 16384 domains on an axis or more than 2^31 copies", "anchors": ["pmesh/domain.py:GridND.decompose,load", "pmesh/_domain.pyx:gridnd_fill"]}
{"id": "C58", "title": "Different seeds give different random numbers", "statement": "Two different seeds of the random generator behind generate_whitenoise never give the same sequence of random numbers.", "quantifier": "every pair of seeds that the interface accepts (unsigned 32 bit)", "why_tests_cant": "2^63 pairs of seeds", "anchors": ["pmesh/gsl/ranlxd.c:ranlxd_set_lux,increment_state", "pmesh/_whitenoise.pyx:generate", "pmesh/pm.py:ParticleMesh.generate_whitenoise"]}
{"id": "C59", "title": "Transforms are right for every sharing of memory", "statement": "r2c, c2r, cast and resample give the transform of the values that the source had when called, whether the result is a new field, the same buffer or another field with any buffer, on padded and unpadded meshes; no other field changes, and the source is kept unless it shares the buffer of the result.", "quantifier": "every source, result, class of field, buffer, and content of memory that is not initialised", "why_tests_cant": "sharing of memory has too many combinations, and stale memory differs from run to run", "anchors": ["pmesh/pm.py:RealField.r2c", "pmesh/pm.py:BaseComplexField.c2r", "pmesh/pm.py:Field.cast", "pmesh/pm.py:Field.resample"]}
{"id": "C60", "title": "Arithmetic on fields is arithmetic on arrays", "statement": "A program of assignments, expressions and in-place statements on fields sees the same values as with numpy arrays in place of the fields.", "quantifier": "every sequence of statements, operations and operands", "why_tests_cant": "all programs", "anchors": ["pmesh/pm.py:Field.__array_ufunc__", "pmesh/pm.py:ParticleMesh.create"]}
{"id": "C61", "title": "A layout serves particles that have moved", "statement": "decompose called once at the old positions and then paint or readout called with that layout at the new positions gives the field or the values of a single process, as long as each particle moved by less than the smoothing that is left beside its window.", "quantifier": "every mesh, number of ranks, window, smoothing (also different on each rank), and pair of old and new positions", "why_tests_cant": "all displacements on all process meshes", "anchors": ["pmesh/pm.py:ParticleMesh.decompose,paint", "pmesh/pm.py:RealField.readout", "pmesh/lic.py:lic"]}
{"id": "C62", "title": "Painting keeps the sign and readout stays within the range of the field", "statement": "With the nnb, cic, tsc and pcs windows paint of nonnegative masses never lowers a cell, and readout returns values between the smallest and the largest value of the field.", "quantifier": "every field, position, mass, dimension, mesh, slab, period, and smoothing length", "why_tests_cant": "all positions and all fields", "anchors": ["pmesh/_window_imp.c", "pmesh/_window_generics.h", "pmesh/_window_tuned_cic.h", "pmesh/window.py:ResampleWindow.paint,readout"]}
{"id": "C63", "title": "Line integral convolution integrates the texture along the streamlines", "statement": "lic returns, in each cell, the texture plus the sum of texture times kernel times step along the streamline through the cell in both directions, the same on any number of ranks.", "quantifier": "every vector field, texture, kernel, length, step, window and process mesh", "why_tests_cant": "the only test of the repository checks that the code runs; all fields and process meshes", "anchors": ["pmesh/lic.py:lic"]}
{"id": "C64", "title": "A chain of transfer functions does what the functions say", "statement": "ParticleMesh.transfer applied to any chain of the functions of pmesh.transfer multiplies each mode with the product of the functions' factors at the frequency of the mode (NormalizeDC divides by the modulus of the zero mode, RemoveDC sets it to zero), the same for every distribution of the modes over ranks, and all ranks return.", "quantifier": "every chain, field, mesh size and distribution, also with ranks that have no modes", "why_tests_cant": "all chains on all process meshes; the deprecated class has no tests for most of the functions", "anchors": ["pmesh/transfer.py:TransferFunction", "pmesh/particlemesh.py:ParticleMesh.__init__,transfer"]}
{"id": "C65", "title": "The deprecated ParticleMesh paints and reads like the new code in a single process", "statement": "decompose, exchange of positions and masses, paint: each rank holds its piece of the density that a single process gets with the cic window; decompose, exchange, readout and gather: each rank gets the values that a single process reads.", "quantifier": "every mesh, number of ranks, positions, masses, content of the field, with and without numba", "why_tests_cant": "all positions on all process meshes", "anchors": ["pmesh/particlemesh.py:ParticleMesh.decompose,paint,readout", "pmesh/cic.py", "pmesh/_cic.py", "pmesh/tsc.py"]}
{"id": "C66", "title": "The transfer of abopt keeps a field real", "statement": "transfer(transfer_function) applied to the modes of a real field, with a transfer function that gives conjugate factors to opposite wavevectors, gives the modes of a real field again: every mode is multiplied with its factor, except that modes which are their own opposites are set to zero if their factor is not real.", "quantifier": "every mesh, transfer function, field and distribution over ranks", "why_tests_cant": "all transfer functions on all meshes, and the Nyquist planes, where a factor is not determined by the wavevector up to sign", "anchors": ["pmesh/abopt.py:nyquist_mask,transfer"]}
{"id": "C67", "title": "White noise on meshes of one and two axes does not depend on the ranks and is white", "statement": "generate_whitenoise on a mesh of one or two axes gives each rank its piece of one Hermitian field of modes that is determined by the seed alone; its zero mode is the mean; if unitary all other modes have modulus one, and if not, in real space the field is an array of independent random numbers with its average taken out, times the square root of the number of points, plus the mean.", "quantifier": "every mesh size, seed, mean, distribution over ranks, full or compressed storage", "why_tests_cant": "all mesh sizes and all process meshes for all seeds", "anchors": ["pmesh/whitenoise.py:generate", "pmesh/pm.py:ParticleMesh.generate_whitenoise"]}
{"id": "C68", "title": "Rounding never loses or doubles a particle that is painted or read on several ranks", "statement": "With the nearest window in floating point arithmetic, decompose and the painters of all ranks agree about the cell of a particle: exactly one rank writes its mass, once and unchanged, that rank is sent the particle, and the cell is the nearest one up to the rounding of the position; readout reads the same cell. With any window no access is outside of the local array.", "quantifier": "every mesh of up to three axes, process mesh, position, mass and precision", "why_tests_cant": "the ranks round differently because each subtracts its own start; the edge cases are particular bit patterns", "anchors": ["pmesh/_window_tuned_nnb.h", "pmesh/_window_generics.h", "pmesh/pm.py:ParticleMesh.decompose,paint", "pmesh/domain.py:GridND.decompose"]}
{"id": "C69", "title": "Painting with cic, tsc and pcs in floating point is accurate on any number of ranks", "statement": "With rounding after every operation, in the position, the choice of ranks and cells, the window and the sum into the field (of either type), the value of every cell of the field that paint returns differs from the exact sum of mass times window over all particles and periodic images by at most an explicit small fraction of the total mass: no particle is lost, painted twice or put on a wrong rank.", "quantifier": "every mesh of up to three axes, process mesh whose slabs leave room for the window, particles inside or outside the box, masses, precision and field type", "why_tests_cant": "all positions, in particular those within rounding of a cell or slab boundary, where the ranks disagree about the cell", "anchors": ["pmesh/_window_tuned_cic.h", "pmesh/_window_tuned_tsc.h", "pmesh/_window_tuned_pcs.h", "pmesh/_window_generics.h", "pmesh/pm.py:ParticleMesh.decompose,paint", "pmesh/domain.py:GridND.decompose"]}
{"id": "C70", "title": "lanczos.paint adds the normalised product window of every particle, and keeps the mass", "statement": "lanczos.paint adds to every element of the mesh the weight of each particle times the product over the axes of the window at all periodic images of the element, normalised by the integral of the window, and changes nothing else. With the default window it agrees with cic.paint and with the compiled cic window. On a periodic mesh a window whose grid values add up to its integral keeps the total mass.", "quantifier": "every window with a declared support and integral, mesh shape, number of axes, period, mode, chunk size and list of particles inside or outside the mesh", "why_tests_cant": "all windows (any function), all positions and all numbers of axes; the module has no tests", "anchors": ["pmesh/lanczos.py:paint,linear,cubic,kaiser"]}
{"id": "C71", "title": "Forces from the mesh obey the third law and conserve momentum", "statement": "For particles that are painted, transformed with r2c, multiplied by a transfer function, transformed back with c2r and read out with the same window and layout: with a transfer function with imaginary values (a gradient) the mass-weighted forces of two sets of particles on each other are opposite, the total over all particles is zero, and a single particle feels no force of its own; with real values the mutual energies are equal, and not negative if the values are not.", "quantifier": "every mesh, storage, number of ranks, distribution of the particles, layout, window, transfer function (also at the Nyquist frequencies) and all masses", "why_tests_cant": "all positions, masses and transfer functions; cancellation between ranks and between modes", "anchors": ["pmesh/pm.py:ParticleMesh.paint", "pmesh/pm.py:RealField.r2c,readout", "pmesh/pm.py:ComplexField.apply,c2r"]}
{"id": "C72", "title": "paint_jvp and readout_jvp are the derivatives of paint and readout, and the vjp functions their gradients", "statement": "paint_jvp(pos, mass, v_pos, v_mass) is in every cell the derivative of paint(pos + t v_pos, mass + t v_mass) at t = 0, readout_jvp(pos, v_self, v_pos) is for every particle the derivative of (self + t v_self).readout(pos + t v_pos), and what paint_vjp and readout_vjp return is the gradient of a function of the painted field or of the values read; the same holds for the operators paint and readout of pmesh.abopt with their own normalisation.", "quantifier": "every mesh, number of ranks, layout, window at positions where it is smooth, all particles, masses, fields and tangents, with either tangent left out", "why_tests_cant": "a statement about limits at all positions; finite differences only sample it, and on several ranks a particle crosses cells and slabs", "anchors": ["pmesh/pm.py:ParticleMesh.paint,paint_jvp,paint_vjp", "pmesh/pm.py:RealField.readout,readout_jvp,readout_vjp", "pmesh/abopt.py:paint,readout"]}
{"id": "C73", "title": "Readout with cic, tsc and pcs in floating point is accurate on any number of ranks", "statement": "With rounding after every operation, in the position, the choice of ranks and cells, the window, the products with the field, the sum on each rank and the sum over the ranks in gather, the value that readout returns for every particle differs from the exact sum of field times window over the cells and periodic images by at most an explicit small fraction of the largest value of the field: no cell is left out or read twice.", "quantifier": "every mesh of up to three axes, process mesh whose slabs leave room for the window, field, positions inside or outside the box, and precision", "why_tests_cant": "all positions and fields, in particular positions within rounding of a cell or slab boundary, where the ranks disagree about the cell", "anchors": ["pmesh/_window_tuned_cic.h", "pmesh/_window_tuned_tsc.h", "pmesh/_window_tuned_pcs.h", "pmesh/_window_generics.h", "pmesh/pm.py:RealField.readout", "pmesh/domain.py:Layout.gather,bincountv"]}
{"id": "C74", "title": "The particle-mesh solver does not depend on where the box begins, and a uniform grid of particles feels no force", "statement": "If all particles are displaced by the same numbers of cells, the painted field is displaced by as many cells, its modes from r2c are multiplied with exp(-i k.s), and after multiplication with any transfer function, c2r and readout every particle gets the same value as before. The zero mode of the painted field is the total mass divided by the number of cells. The particles of generate_uniform_particle_grid give the same density in every cell and, with any transfer function that vanishes for the zero mode, feel no force.", "quantifier": "every mesh, number of ranks, storage, window, transfer function, displacement (particles may leave the box and change ranks), positions, masses and shift of the grid", "why_tests_cant": "all positions, transfer functions and displacements; the ranks that own the particles and the halo copies change with the displacement", "anchors": ["pmesh/pm.py:ParticleMesh.decompose,paint,generate_uniform_particle_grid", "pmesh/pm.py:RealField.r2c,readout", "pmesh/pm.py:ComplexField.apply,c2r"]}
{"id": "C75", "title": "Filters in Fourier space are exact for functions that the mesh resolves", "statement": "If a sum of plane waves with fewer periods along each axis than half the mesh points is sampled on the mesh and transformed with r2c, then apply(lambda k, v: T(k) * v, kind='wavenumber') followed by c2r multiplies the amplitude of each wave by T at its wavevector. In particular i*k[d] gives the derivative of the function at the mesh points, and -1/k.normp(zeromode=1) the solution of Poisson's equation.", "quantifier": "every sum of waves, box, mesh, number of ranks, local memory layout, filter with T(-k) = conj T(k), and output argument", "why_tests_cant": "all functions, filters and decompositions; a wrong wavenumber at one index of one rank shows only for functions with that mode", "anchors": ["pmesh/pm.py:Field.apply", "pmesh/pm.py:ParticleMesh._init_o_coords", "pmesh/pm.py:ComplexField.c2r", "pmesh/pm.py:RealField.r2c", "pmesh/pm.py:xslab.normp"]}
{"id": "C76", "title": "The particle-mesh solver gives the same on any number of ranks", "statement": "Two runs with the same mesh, box, window, and set of particles paint the same field, and after r2c, multiplication with the same transfer function and c2r, each particle reads the same value in both runs. Number of ranks, process mesh, memory layout, smoothing given to decompose, and the ranks and order in which the particles are stored make no difference.", "quantifier": "all pairs of runs: process meshes, distributions and order of particles, masses, transfer functions", "why_tests_cant": "all pairs of decompositions and distributions; a test compares a few numbers of ranks on one machine", "anchors": ["pmesh/pm.py:ParticleMesh.decompose,paint", "pmesh/pm.py:RealField.r2c,readout", "pmesh/pm.py:ComplexField.c2r", "pmesh/domain.py:GridND.decompose"]}
{"id": "C77", "title": "Products of spectra: inner products, convolutions and correlation functions", "statement": "For the transforms F = r2c(f), G = r2c(g) of real fields: the real part of F.cdot(G) is f.cdot(g) / Nmesh.prod(), as the docstring of cdot says, and F.cnorm() is f.cdot(f) / Nmesh.prod(); c2r(F * G) is the periodic convolution 1/N sum_y f(y) g(x - y) and c2r(F * conj(G)) the correlation function 1/N sum_y f(x + y) g(y), on any number of ranks and any partition of the modes; F.cdot_vjp(v, metric) is the gradient of v * F.cdot(other, metric) with respect to other.", "quantifier": "all meshes of any number of dimensions, all real fields, all partitions of the real and of the complex field, all metrics", "why_tests_cant": "a statement about all fields and meshes that ties the transforms, the Hermitian weights and the reductions over ranks together; a test compares floating point numbers for one field", "anchors": ["pmesh/pm.py:BaseComplexField.cdot,cnorm,cdot_vjp", "pmesh/pm.py:RealField.r2c,cdot", "pmesh/pm.py:BaseComplexField.c2r,_expand_hermitian"]}
{"id": "C78", "title": "The deprecated ParticleMesh is a correct state machine although real and complex field share memory", "statement": "Whatever was done with the object before, any sequence of clear, paint, r2c, push, pop, transfer, c2r and readout that uses the real field only when the last field written is real, and the complex field only when it is complex, returns the values of a machine with one current field and a stack, without any memory shared; pop brings back the complex field that the matching push saved, whatever is done in between; the standard steps (clear, paint, r2c, and for each direction push, c2r with transfer functions, readout, pop) read out, for each direction, the field of all particles painted with the transfer functions of this direction only.", "quantifier": "all sequences of calls, all contents of the buffer before, all fields, all lists of transfer functions and of directions", "why_tests_cant": "the failure modes are aliasing and leftovers of earlier steps; tests run one fixed sequence of calls on a fresh object", "anchors": ["pmesh/particlemesh.py:ParticleMesh.clear,paint,r2c,push,pop,transfer,c2r,readout"]}
{"id": "C79", "title": "The gradient read off the mesh is the exact gradient of the mesh energy", "statement": "Paint particles with their masses, r2c, multiply with any real transfer function, c2r: this gives a potential on the mesh. Half the sum of mass times the potential read at the particles is the energy. When the particles of all ranks move with any velocities, the rate of change of the energy is exactly the sum of mass times velocity times what readout with gradient=d returns for the potential. So a leap-frog code that kicks with readout(gradient=d) uses the force of a conserved energy, without any error of discretisation in the force.", "quantifier": "all numbers of particles, positions where the window is smooth, masses, velocities, meshes, boxes, windows, layouts, numbers of ranks, real transfer functions", "why_tests_cant": "A test can compare with a finite difference at a few places up to a tolerance; that the force is the gradient of one energy is a statement about all configurations and about the derivative itself.", "anchors": ["pmesh/pm.py:745-791", "pmesh/pm.py:1794-1869", "pmesh/pm.py:655-694", "pmesh/pm.py:987-1019"]}
{"id": "C80", "title": "reshape, resize and respawn change only what they are asked to change", "statement": "pm.reshape(Nmesh, BoxSize) gives a mesh with the cells and the box asked for and everything else as in pm, and raises ValueError exactly if the lengths of Nmesh and BoxSize differ or a 1-d mesh is asked for on several ranks. reshape() is the mesh again; reshaping twice is reshaping once; resizing there and back gives the mesh again. pm.respawn(comm, np) has the same cells, box, type and window on the new communicator.", "quantifier": "all meshes made by the constructor, all arguments, all communicators, whatever pfft accepts", "why_tests_cant": "The result depends on the combination of all construction arguments; a test tries a few and compares a few attributes.", "anchors": ["pmesh/pm.py:1293-1362", "pmesh/pm.py:1371-1397", "pmesh/pm.py:1537-1599"]}
{"id": "C81", "title": "The particle-mesh solver has the symmetries of the box", "statement": "If the axes of mesh, box and positions are exchanged, then the painted field and its modes have their axes exchanged, and after r2c, multiplication with the transfer function with its axes exchanged, c2r and readout each particle reads the same value. The same holds for mirror images of the particles in the middle of the box along any of the axes, for windows that are the same on both sides of the particle; force components along mirrored axes change their sign. If box and positions are given in another unit of length, then the field, its modes and the values read are the same.", "quantifier": "all meshes, boxes, dimensions, orders of axes, sets of mirrored axes, units, particles, masses, windows, transfer functions of real kernels, pairs of numbers of ranks", "why_tests_cant": "a test compares one pair of runs; the axes are treated alike by the stencils of four tuned windows and by the generic code, but not by the decomposition, which only splits some axes, nor by the storage of modes, which halves the last axis", "anchors": ["pmesh/pm.py:ParticleMesh.decompose,paint", "pmesh/pm.py:RealField.r2c,readout", "pmesh/pm.py:ComplexField.c2r", "pmesh/_window_generics.h:pmesh_painter_paint,pmesh_painter_readout", "pmesh/_window_tuned_cic.h"]}
{"id": "C82", "title": "Painting commutes with projection", "statement": "For the windows nnb, cic, tsc and pcs: painting and then projecting with preview(axes) gives on every rank the field that painting the projected particles on the mesh with only these axes gives; the modes of the projection are the modes of the field that do not vary along the other axes, times the number of cells that are summed; csum of the painted field is the total mass. Reading a field that does not vary along some axes gives what reading it on the mesh without them gives.", "quantifier": "all meshes, boxes, sets of kept axes in any order, particles, masses, numbers of ranks", "why_tests_cant": "relates runs in different dimensions, which use different unrolled loops, for all positions; floating point and finite samples can only show agreement for the positions tried", "anchors": ["pmesh/pm.py:ParticleMesh.decompose,paint", "pmesh/pm.py:RealField.preview,csum,readout,r2c", "pmesh/_window_tuned_cic.h", "pmesh/_window_tuned_tsc.h", "pmesh/_window_tuned_pcs.h", "pmesh/_window_tuned_nnb.h"]}
{"id": "C83", "title": "White noise on three axes is one real field with the requested mean and power", "statement": "generate_whitenoise on a mesh of three axes (equal first two, even last) fills on every rank its piece of one Hermitian field of modes that depends on mesh, seed, unitary and mean only: not on the number of ranks, the partition, compressed or full storage, the order of axes in memory, the box or the previous content of memory. Transforming it to real space and back gives it again; the mean of the real field over the mesh is exactly the requested mean; with unitary=True the mean square of the real field is exactly mean^2 plus the number of modes other than the mean.", "quantifier": "all seeds, meshes N x N x N2 with even N2, partitions, storages, strides, boxes, memory contents, real means, random number generators", "why_tests_cant": "the statement joins all ranks and all modes; tests compare two or three process meshes for one seed, and the mean square only up to noise", "anchors": ["pmesh/pm.py:ParticleMesh.generate_whitenoise", "pmesh/_whitenoise.pyx", "pmesh/_whitenoise_generics.h", "pmesh/pm.py:BaseComplexField.c2r", "pmesh/pm.py:RealField.r2c"]}
{"id": "C84", "title": "Noise made on one mesh and resampled is the noise made on the other mesh", "statement": "On even cubic meshes: generating white noise on one mesh and resampling it to another one, finer, equal, or coarser by at least a factor two, returns on all ranks, and gives in each mode strictly below the Nyquist frequencies of both meshes what generate_whitenoise with the same seed gives on the other mesh directly; all other modes are zero. So initial conditions at different resolutions have the same phases, and degrading commutes with generating.", "quantifier": "all pairs of even sizes with these ratios, seeds, partitions, numbers of ranks, storages, memory contents", "why_tests_cant": "ties the order in which seeds are drawn (shells), the placing of modes by frequency, and the exchange of modes between ranks; a test has one pair of sizes", "anchors": ["pmesh/pm.py:ParticleMesh.generate_whitenoise", "pmesh/pm.py:BaseComplexField.resample", "pmesh/_whitenoise_generics.h", "pmesh/_whitenoise.pyx"]}
{"id": "C85", "title": "A simulation from seed to final state is the same on any number of ranks", "statement": "A program that generates white noise, multiplies it with transfer functions, transforms to real space, reads the fields at the particles of the uniform grid, displaces them, and then repeats any number of times: decompose, paint, r2c, transfer functions, c2r, decompose, readout, and a change of each particle that depends on its own state and the values it reads, completes on all ranks (no deadlock, no exception), and ends with the same particles (ids, positions, momenta), whatever the number of ranks, the process mesh, the partition of the modes and the order in memory. For given initial particles on any ranks in any order, the final state of each particle is one function of its initial state, and it stays on its rank and at its place in the arrays.", "quantifier": "all numbers of steps, ranks, partitions, particles, masses, transfer functions (which may change from step to step), integrators, windows, seeds", "why_tests_cant": "the claim is about runs of arbitrary length and all pairs of decompositions; differences could enter in any step and be amplified; tests compare single calls", "anchors": ["pmesh/pm.py:ParticleMesh.generate_whitenoise,generate_uniform_particle_grid,decompose,paint", "pmesh/pm.py:RealField.r2c,readout", "pmesh/pm.py:BaseComplexField.c2r,apply", "pmesh/domain.py:Layout"]}
{"id": "C86", "title": "A simulation conserves momentum and keeps equilibrium for any number of steps", "statement": "In a simulation on any number of ranks whose kicks are multiples of values read from the painted density through transfer functions with imaginary values (such as -i k_d / k^2), the sums over the particles of all ranks of mass and of mass times momentum never change, in exact arithmetic. Particles of equal mass on generate_uniform_particle_grid, at rest, stay at rest forever, with any window, shift, and transfer functions that vanish for the zero mode.", "quantifier": "all numbers of steps, ranks, partitions, particles, windows, meshes, shifts, transfer functions of the kind named", "why_tests_cant": "conservation laws over arbitrarily many steps; a test sees round-off and one trajectory", "anchors": ["pmesh/pm.py:ParticleMesh.decompose,paint,generate_uniform_particle_grid", "pmesh/pm.py:RealField.r2c,readout", "pmesh/pm.py:BaseComplexField.c2r,apply"]}
{"id": "C87", "title": "The N-body program of the examples: same result on any number of ranks, momentum, clocks and exact reversibility", "statement": "examples/nbody.py: for each scheme (symp1, symp2, symp3), each class of factors and any list of time steps, the run completes on all ranks and moves every particle in a way that does not depend on the number of ranks, the partition or the order of the particles; the sum of V over all particles is conserved exactly; every kick starts at the time of the velocities and refers to the time of the force, every drift starts at the time of the positions and refers to the time of the velocities, and both end at the last time; with additive factors the kicks and the drifts add up to the factor of the whole interval; symp2 run over the times and then over the reversed times returns exactly to the initial Q, S, V; the whole of simulate, from the seed, gives the same particles on any number of ranks.", "quantifier": "all meshes of C23, numbers of ranks, particles, factors, lists of times, seeds", "why_tests_cant": "A test runs one configuration with a few steps and compares with a tolerance; it cannot settle exact conservation or reversibility for all steps, factors and decompositions.", "anchors": ["examples/nbody.py:13-75 factors", "examples/nbody.py:84-152 symp1, symp2, symp3", "examples/nbody.py:199-218 force", "examples/nbody.py:245-288 simulate"]}
{"id": "C88", "title": "The Klein-Gordon solver of the examples follows its documented scheme", "statement": "examples/klein-gordon.py, kgsolver: for any initial fields, nonlinear term, list of at least two times and number of ranks the solver returns on all ranks the field at the last time of the documented semi-implicit scheme, (1/dt^2 - Nabla^2/4 + 1/4) u_n + (-1/dt^2 - Nabla^2/4 + 1/4) 2 u_(n-1) + (1/dt^2 - Nabla^2/4 + 1/4) u_(n-2) = F(u_(n-1)), started from u_0 and u_0 + du_0 (t_1 - t_0), the same for any number of ranks; so a uniform stationary solution (F(c) = c) stays.", "quantifier": "all meshes, numbers of ranks, initial fields, nonlinear terms, lists of times", "why_tests_cant": "A test compares a short run with a stored picture or norm; only the recurrence for all modes and steps shows which scheme is solved.", "anchors": ["examples/klein-gordon.py:31-100 kgsolver"]}
{"id": "C89", "title": "The cost of an exchange is reported exactly, and the number of copies is bounded", "statement": "Layout.get_exchange_cost returns on every rank the same array, whose entry q is the number of rows that rank q sends to other ranks; for a layout from decompose this is the number of pairs of a particle of q and another rank with a domain that the smoothing region of the particle meets. If no domain is narrower than w_j along axis j, decompose sends every particle to at most the product over the axes of (ceil(2 s_j / w_j) + 1) ranks, for smoothing s_j: exactly one without smoothing, at most 2 per axis if the smoothing is at most half a domain; so the rows received by all ranks are at most that many times the number of particles.", "quantifier": "all periodic grids, owners of domains, smoothing lengths that fit the box in the sense of C01, positions, numbers of ranks and particles", "why_tests_cant": "A bound for all positions and domain widths, on which the memory of a run depends; tests count copies in one configuration.", "anchors": ["pmesh/domain.py:125-136 Layout.get_exchange_cost", "pmesh/domain.py:GridND.decompose", "pmesh/_domain.pyx:gridnd_fill"]}
{"id": "C90", "title": "A simulation of any length has the symmetries of the box, on any number of ranks", "statement": "Take a program that repeats: paint particles, r2c, multiply by transfer functions, c2r, readout, move the particles. Run it once on one set of ranks, and once on another set of ranks on the image of the problem: with the axes of mesh and particles exchanged; seen in a mirror (window even); in another unit of length; displaced by whole cells; or with the modes stored in full instead of compressed. If transfer functions and update rule are the images of each other, then after any number of steps both runs have completed on all ranks and the particles of the second are the images of those of the first.", "quantifier": "all programs of this form, numbers of steps, particles, meshes and boxes, rank counts, orders of particles, permutations of axes, sets of mirrored axes, units, displacements in cells; transfer functions of real kernels (not needed for displacements)", "why_tests_cant": "A statement about all lengths of simulation and all programs; a test compares one short run, and rounding would hide or mimic an asymmetry of one cell or half a cell after many steps.", "anchors": ["pmesh/pm.py:ParticleMesh.paint", "pmesh/pm.py:RealField.r2c", "pmesh/pm.py:BaseComplexField.c2r", "pmesh/pm.py:Field.readout", "pmesh/pm.py:Field.apply", "pmesh/window.py:ResampleWindow"]}
{"id": "C91", "title": "The N-body example integrates the equations of motion to the order in the name of the scheme", "statement": "In examples/nbody.py, each of the seven classes of kick and drift factors agrees with the equations dS/da = V/(a^3 E), dV/da = F/(a^2 E) for short steps. One step of symp1, symp2, symp3 with the factors of class Quinn differs from the exact motion by less than the first, second, third power of the step in log a, for every smooth force of the displacements of all particles. With class FastPM and the force of linear theory every scheme keeps the growing mode exactly: the displacements and velocities that simulate sets up at the first time become those it would set up at the last time, for any number and length of steps.", "quantifier": "all smooth background functions, forces, initial conditions, first times, lists of positive times, numbers of components", "why_tests_cant": "The order of a scheme is a statement about limits; one wrong coefficient of symp3 (-1/24, 3/4, -2/3) still gives a plausible run.", "anchors": ["examples/nbody.py:13-75 classes of factors", "examples/nbody.py:84-152 symp1, symp2, symp3", "examples/nbody.py:270-275 simulate"]}
{"id": "C92", "title": "The N-body example computes the gradient of the potential of its particles", "statement": "In examples/nbody.py, force completes on all ranks and gives to each particle 3/2 Omega times the gradient, by differences of the four nearest cells along each axis read with the window, of the potential phi with -Laplace(phi) = density contrast of the particles of all ranks, whichever of the potentials (they differ by a constant) is taken. The displacements of simulate are a gradient field with divergence minus the density contrast and mean 0.", "quantifier": "all particles, ranks, meshes, boxes, windows, all modes including Nyquist frequencies", "why_tests_cant": "The code multiplies by i (8 sin w - sin 2w)/(6 C k^2) in Fourier space; that this is a difference of four cells of one real potential, also at the Nyquist frequencies and for odd meshes, is an identity for all fields.", "anchors": ["examples/nbody.py:154-170 dx1_transfer, force_transfer", "examples/nbody.py:199-218 force"]}
{"id": "C93", "title": "The N-body schemes conserve the volume of phase space", "statement": "In examples/nbody.py, a run of symp1, symp2 or symp3 with any factors, times and window, on any number of ranks, maps the displacements and velocities of all particles by a single map of phase space that is invertible and keeps volumes (Liouville). The map keeps the symplectic form, which the names of the schemes promise.", "quantifier": "all numbers of particles and ranks, distributions of the particles, meshes, windows, factors, lists of times", "why_tests_cant": "Volume in a space of 6 N dimensions cannot be measured by a test; it needs that every kick uses the force of the present positions of all particles.", "anchors": ["examples/nbody.py:84-152 symp1, symp2, symp3", "examples/nbody.py:199-218 force"]}
{"id": "C94", "title": "Meshes of complex numbers behave as complex functions", "statement": "With a complex dtype a RealField is made of complex numbers and the ComplexField is stored in full. Then cdot of two spectra, real and imaginary part, is the complex inner product of the meshes c2r gives, divided by the number of cells, and cnorm the mean squared absolute value; cdot and cnorm of the meshes are the inner product and the sum of squared absolute values; csetitem of a mode sets this mode to the given value and no other; readout interpolates the complex values.", "quantifier": "all meshes of complex numbers, partitions over ranks, spectra without Hermitian symmetry, particles", "why_tests_cant": "The tests use complex dtypes only for round trips of real functions, where all of this coincides with the real case.", "anchors": ["pmesh/pm.py:1268-1272 dtype", "pmesh/pm.py:RealField.cdot", "pmesh/pm.py:BaseComplexField.cdot", "pmesh/pm.py:Field.csetitem", "pmesh/window.py:ResampleWindow.readout", "pmesh/window.py:ResampleWindow.paint"]}
{"id": "C95", "title": "check_grad accepts exactly the gradients that agree with finite differences, on all ranks", "statement": "check_grad of pmesh/abopt.py perturbs every component of the input in turn, on whichever rank it lies, and compares the central difference of the output with the gradient by vjp and by jvp. All ranks come to the same verdict. It accepts if and only if for every component twice the step times the gradient agrees with the jvp to rtol, and with the central difference to 10000 rtol, relative to the sum of the absolute values (a value 0 counts with the standard deviation over all components), plus atol. A code with right gradients is accepted for all small steps, a quadratic one for every step. A code with a wrong component of the gradient is rejected on all ranks.", "quantifier": "all codes under test with a scalar output, inputs that are fields or rows of particles, numbers of ranks and distributions of the input over them, steps, tolerances", "why_tests_cant": "It is the tool the tests of abopt rely on; a check that accepts too much makes these tests pass, and only a statement about all gradients shows it.", "anchors": ["pmesh/abopt.py:288-387 check_grad"]}
{"id": "C96", "title": "A function decorated with FromRoot gives all ranks the value computed on rank 0", "statement": "FromRoot(comm)(func) called on all ranks calls func on rank 0 only and returns its value on all ranks; if func raises, all ranks see an exception.", "quantifier": "all functions and numbers of ranks", "why_tests_cant": "What the other ranks do when rank 0 fails is a hang, which a test cannot wait for.", "anchors": ["pmesh/tools.py:19-30 FromRoot"]}
{"id": "C97", "title": "The inner product of the vector space of abopt is the sum over all components on all ranks", "statement": "ParticleMeshVectorSpace.dot of two arrays attached to the particles completes on all ranks and gives all of them the sum over the particles of all ranks of the products of their components.", "quantifier": "all arrays with one or two axes, numbers of particles on each rank, numbers of ranks", "why_tests_cant": "Whether the call returns at all depends on the number of particles of each rank.", "anchors": ["pmesh/abopt.py:45-58 ParticleMeshVectorSpace.dot"]}
{"id": "C98", "title": "cdot of two real fields is the inner product over the mesh", "statement": "a.cdot(b) of two RealFields of the same Nmesh on the same ranks returns on all ranks the sum over the cells of the mesh of a times b. With an array of the local shape as b it does the same. With a field of another class all ranks raise TypeError.", "quantifier": "all meshes, partitions over ranks of each of the two fields, values", "why_tests_cant": "What happens with fields of two ParticleMesh objects depends on both partitions over the ranks; the tests use one mesh.", "anchors": ["pmesh/pm.py:210-215 Field._check_compatible", "pmesh/pm.py:897-899 RealField.cdot"]}
{"id": "C99", "title": "The N-body example converges to the solution of the equations of motion", "statement": "In examples/nbody.py, when the steps in time get smaller, the displacements and velocities at the end of a run of symp1, symp2 or symp3, with any of the seven classes of factors and any number of ranks, tend to the (only) solution of dS/da = V/(a^3 E), dV/da = F(S)/(a^2 E), where F is the force of the particle-mesh method on all particles; with class Quinn the error is at most a constant times the largest step.", "quantifier": "all numbers of particles and ranks, distributions of the particles over the ranks, meshes, Lipschitz windows, initial displacements and velocities, intervals and lists of times, cosmologies", "why_tests_cant": "A limit of ever smaller steps cannot be run; the constant must hold for all lists of times and all distributions, and the exact solution is not known in closed form.", "anchors": ["examples/nbody.py:12-152 FastPM, Quinn, TVE, VTE, Naive, symp1, symp2, symp3", "examples/nbody.py:199-218 force"]}
{"id": "C100", "title": "A homogeneous universe stays homogeneous, and what repeats itself in the box goes on to do so (examples/nbody.py)", "statement": "Particles of examples/nbody.py that, moved by some whole cells of the mesh of the forces, are the same particles again (places up to whole boxes, displacements, velocities) are so at the end of any run. If this holds for one cell, or two cells, along an axis, no particle ever feels a force along this axis: that component of all velocities stays exactly what it was and that component of the displacements drifts freely. If each particle can be moved to each other one in this way (particles of a uniform grid with common displacement and velocity), nothing ever accelerates. For particles of generate_uniform_particle_grid with a force mesh boost times as fine: displacements and velocities that do not depend on some direction never come to depend on it (a plane wave stays a plane wave).", "quantifier": "for all schemes, factors, lists of times, windows, meshes, boxes, boosts, shifts of the grid, states with the symmetry and numbers of ranks", "why_tests_cant": "A test compares with a tolerance for one mesh and one number of ranks; that no spurious force ever arises is a statement about all particles, all modes and all steps, and rounding hides small violations.", "anchors": ["examples/nbody.py:84-152", "examples/nbody.py:162-170", "examples/nbody.py:199-218", "examples/nbody.py:245-288", "pmesh/pm.py:1697-1751"]}
{"id": "C101", "title": "Numbers keep their values whatever numpy types the ranks pass", "statement": "Layout.exchange delivers, and Layout.gather brings back, the numbers that were handed in, whatever the numpy types of the arrays (ids as integers, positions and masses as single or double precision); gather with 'sum' and 'mean' gives the sum and the mean of the copies in every type. generate_uniform_particle_grid(shift, dtype) returns an array of the type asked for, by default with the precision of the mesh, and its positions are the places of the cells up to rounding.", "quantifier": "for all numbers of ranks, layouts, real types of each rank, values, trailing shapes, meshes and shifts", "why_tests_cant": "Tests use double precision on all ranks. Which values survive a conversion, and which type a rank without particles imposes on the others, are statements about all values and all combinations of types.", "anchors": ["pmesh/domain.py:26-57", "pmesh/domain.py:173-318", "pmesh/pm.py:1697-1751"]}
{"id": "C102", "title": "Coordinates and wavenumbers in floating point do not depend on the ranks and are exactly antisymmetric", "statement": "The coordinates and wavenumbers that create_coords, field.x and apply hand out, which are computed in the floating point type of the mesh, are the same numbers bit for bit however the mesh is split over the ranks; they are within a few rounding errors of index*BoxSize/Nmesh and 2*pi*index/BoxSize; different mesh points get different coordinates in the right order; the wavenumbers of opposite modes are exactly opposite, so that a filter that is a real even function of the components of the wavevector leaves opposite modes exact complex conjugates, with no rounding error that would make the field complex.", "quantifier": "for all mesh sizes below 2^p, box sizes, splits of the mesh, precisions between 8 and 53 digits, indices and filters", "why_tests_cant": "A test compares with a tolerance and for a few meshes. Bitwise equality over all decompositions and error bounds over all indices and boxes need a proof about rounding.", "anchors": ["pmesh/pm.py:1179-1224", "pmesh/pm.py:1505-1530", "pmesh/pm.py:617-648"]}
{"id": "C103", "title": "White noise is white: independent Gaussian modes of unit power", "statement": "If the numbers of the random generator are independent and uniform, the modes of generate_whitenoise(seed, type='complex') in three dimensions that are not related by the Hermitian symmetry are independent of each other, on whatever ranks they are; each has mean zero, independent normal real and imaginary parts and expected power E|delta|^2 = 1; with unitary=True they are on the unit circle with uniform phases.", "quantifier": "for all even meshes, seeds, decompositions over ranks, storage orders, sets of modes, and ideal generators", "why_tests_cant": "A test can only look at averages of a few realisations. Independence and the distribution are statements about all sets of modes and the whole probability space.", "anchors": ["pmesh/_whitenoise_imp.c:16-70", "pmesh/_whitenoise_generics.h:29-232", "pmesh/pm.py:1655-1695"]}
{"id": "C104", "title": "Interpolation between mesh and particles is second-order accurate", "statement": "If a real field holds the values of a smooth periodic function at the mesh points, readout with the cic, tsc or pcs window returns the function at the position of each particle up to a constant times the curvature of the function times the square of the cell size, wherever the particles are and on any number of ranks; with the nnb window the error is at most half a cell times the slope. Conversely the sum over the mesh of the painted density times a smooth function is the sum over the particles of mass times the function, to the same accuracy. A plane wave of wavenumber k is read with an error of at most (k h)^2/8 (cic, tsc) or (k h)^2/6 (pcs).", "quantifier": "for all periodic functions with bounded curvature, meshes and boxes in any dimension, positions, masses, decompositions over ranks", "why_tests_cant": "A test can only compare a few functions at a few points with a tolerance. The order of accuracy is a bound over all functions, positions and cell sizes.", "anchors": ["pmesh/pm.py:745-791", "pmesh/pm.py:1783-1857", "pmesh/_window_tuned_cic.h:1-72", "pmesh/_window_tuned_tsc.h:1-25", "pmesh/_window_tuned_pcs.h:1-38", "pmesh/_window_imp.c:60-140"]}
{"id": "C105", "title": "Collective sums in floating point agree on all ranks and are accurate", "statement": "In floating point arithmetic csum, cdot and cnorm of a real field return the same number on all ranks. It is a sum of the elements (products) of the global array in some order with every addition rounded, so its error is at most (1+2^-p)^n - 1 times the sum of the absolute values, for any number of ranks. Sums of numbers that are small multiples of one unit, such as counts of particles, are exact and do not depend on the ranks. cnorm is never negative and is zero only for a field that is zero everywhere. cgetitem returns the stored element to all ranks without rounding.", "quantifier": "for all meshes in any dimension, decompositions over ranks, memory orders, contents, precisions, and orders of summation of numpy and MPI", "why_tests_cant": "Numpy's and MPI's order of summation differ between versions, machines and numbers of ranks. A test sees one order; the bound holds for all.", "anchors": ["pmesh/pm.py:287-296", "pmesh/pm.py:724-743", "pmesh/pm.py:897-902"]}
{"id": "C106", "title": "The tabulated windows keep the mass up to a stated tolerance, and the wavelets move it", "statement": "Painting with the windows lanczos2 to lanczos6, acg2 to acg6, sym6 to sym20 and db6 to db20 on a fully periodic mesh adds the total mass of the particles up to a relative tolerance per axis, and reading a constant field returns the constant up to the same tolerance, wherever the particles lie within their cells: lanczos2 1.2 per cent, lanczos3 to lanczos6 0.5, acg2 22.6, acg3 9.5, acg4 5.2, acg5 3, acg6 1.6, wavelets 0.21 per cent. The wavelets do not put the mass at the particle: the centre of the painted mass is displaced by a fixed number of cells, 0.22 (sym6) to 4.48 (db20), up to a hundredth of a cell.", "quantifier": "all tabulated windows with the tables as in the code, all particle positions and masses, all dimensions and mesh sizes", "why_tests_cant": "tests compare a few positions with stored numbers; the windows are piecewise linear functions of the position with thousands of pieces, and the largest deviation over all positions is not seen by samples", "anchors": ["pmesh/_window_lanczos.h:2057-2084", "pmesh/_window_acg.h:2057-2084", "pmesh/_window_wavelets.h:457-479", "pmesh/_window_imp.c:24-69", "pmesh/_window_imp.c:284-379", "pmesh/window.py:230-255"]}
{"id": "C107", "title": "Gradients read off the mesh are accurate", "statement": "If a real field holds the values of a smooth periodic function at the mesh points, readout with gradient=d returns the derivative of the function along axis d at the position of each particle, wherever the particles are and on any number of ranks: with the cic and tsc windows the error is at most a constant times the curvature of the function times the cell size, with tsc at most a constant times its third derivatives times the square of the cell size. This holds also exactly on and between mesh points. The pcs window is accurate as well.", "quantifier": "for all periodic functions with bounded second or third derivatives, meshes and boxes in one to three dimensions, positions, decompositions over ranks", "why_tests_cant": "A test can only compare a few functions at a few points with a tolerance, usually with cells of unit size. The order of accuracy is a bound over all functions, positions and cell sizes.", "anchors": ["pmesh/pm.py:1783-1857", "pmesh/_window_tuned_cic.h:1-72", "pmesh/_window_tuned_tsc.h:1-25", "pmesh/_window_tuned_pcs.h:1-38"]}
{"id": "C108", "title": "Random fields made of white noise are Gaussian, homogeneous and have the power spectrum of the transfer function", "statement": "If the numbers of the random generator are independent and uniform, the real field obtained by generate_whitenoise(seed, type='complex', mean=mean), multiplication with a transfer function T(k) that keeps the field real, and c2r is a Gaussian random field: its values in any set of cells are jointly normal, the expected value of every cell is T(0) mean, the covariance of two cells is the sum over the modes of |T(k)|^2 cos(k (x - y)), so that the power spectrum is |T|^2, and the joint distribution of any set of cells is the same after moving all of them by the same number of cells around the periodic box. The result does not depend on the decomposition over ranks.", "quantifier": "for all even meshes, seeds, decompositions over ranks, complex layouts, transfer functions, sets of cells, shifts and ideal generators", "why_tests_cant": "A test can only compare the measured power of some realisations with a tolerance. Gaussianity and homogeneity are statements about the distribution on all sets of cells.", "anchors": ["pmesh/_whitenoise_generics.h:29-232", "pmesh/pm.py:1655-1695", "pmesh/pm.py:987-1018", "pmesh/pm.py:1047-1085"]}
{"id": "C109", "title": "Painting does not overflow the 32-bit integers of the C code", "statement": "paint and readout, which compute cell numbers, window sizes and numbers of points with the int type of C, never overflow and give the results of unbounded integers: on any mesh and rank, for particles anywhere in the box and up to B boxes away from it in any direction, as long as (B + 1) times the number of cells along each axis plus the size of the window stays below 2^31 and the window covers fewer than 2^31 cells.", "quantifier": "for all windows with and without a tuned implementation, smoothing lengths, gradient directions, meshes in any dimension, ranks, positions, masses", "why_tests_cant": "Signed overflow is undefined in C: a test that passes with one compiler says nothing about another one, and positions near the limit are never tried.", "anchors": ["pmesh/_window_imp.c:24-96", "pmesh/_window_generics.h:18-220", "pmesh/_window_tuned_nnb.h:1-126", "pmesh/_window_tuned_cic.h:1-160", "pmesh/_window_tuned_tsc.h:1-212", "pmesh/_window_tuned_pcs.h:1-323"]}
{"id": "C110", "title": "preview at another resolution gives all ranks the array of a single process and keeps the mean", "statement": "preview(Nmesh=N, axes, resampler, method) returns the same array on all ranks, and it is the array that a single process returns. If N is the number of cells of the mesh the field is returned as it is. By default a field is painted (downsample) if any axis gets fewer cells and read (upsample) otherwise; an unknown method raises ValueError on all ranks. Painting with nnb, cic, tsc or pcs keeps the mean of the field. A constant field stays the same constant. Reading on a mesh with a whole fraction of the cells with nnb or cic picks the values of the field at these points unchanged.", "quantifier": "for all fields, meshes and decompositions over ranks, numbers of cells, axes, windows and methods", "why_tests_cant": "A test compares a few meshes on a few ranks; the array depends on how both meshes are split, on the halos of two decompositions, and on the ratio of the numbers of cells along each axis.", "anchors": ["pmesh/pm.py:549-615", "pmesh/pm.py:1936-2026"]}
{"id": "C111", "title": "Random particles painted on the mesh have exactly the shot noise of the window", "statement": "If the coordinates of all particles are independent and uniformly distributed in the box, the density painted by decompose and paint, transformed by r2c, has these properties for the windows nnb, cic, tsc and pcs: the zero mode is the total mass over the number of cells, whatever the positions; all other modes have mean zero; different modes are uncorrelated; the mean square of a mode is the sum of the squared masses, divided by the square of the number of cells, times the product over the axes of the power of the window, which is 1 for nnb, 1 - 2/3 s for cic, 1 - s + 2/15 s^2 for tsc and 1 - 4/3 s + 2/5 s^2 - 4/315 s^3 for pcs, with s = sin^2(pi k/N), and always between 0 and 1. So power spectra measured on the mesh can be corrected for shot noise.", "quantifier": "for all meshes in any dimension, boxes, decompositions over ranks, distributions of any number of particles over the ranks, masses, modes and probability spaces", "why_tests_cant": "A test can only average over some random catalogues and compare with a tolerance of the size of the fluctuations; means and correlations are integrals over all positions of all particles.", "anchors": ["pmesh/pm.py:1753-1870", "pmesh/pm.py:655-690", "pmesh/_window_imp.c", "pmesh/_window_tuned_cic.h", "pmesh/_window_tuned_tsc.h", "pmesh/_window_tuned_pcs.h"]}
{"id": "C112", "title": "The leap-frog solver keeps positions, velocities and forces in step and asks for every snapshot once", "statement": "A run of nbody/qpm.py is a leap-frog: kicks are half a step long, follow each other without gaps, and use the force at one of their ends; drifts follow each other without gaps and use the velocities of the middle of the step, also when a step is divided by output times. Whenever the caller is told that a step is done, and at the end, positions, velocities and forces belong to the time told; when a snapshot is asked for, the positions do. The run ends at the first step later than all output times or at the first one not before today. Every output time is asked for exactly once and in the order of time. After a drift all positions are in the box. (The code asks twice for output times that are at a step, never for those before the start, and raises for the default argument and for a start today.)", "quantifier": "for all starting times, steps, lists of output times in any order, positions, velocities and box sizes", "why_tests_cant": "A test runs one schedule; whether the clocks agree depends on how output times fall between steps, for any number of them.", "anchors": ["nbody/qpm.py:51-80", "nbody/qpm.py:111-169"]}
{"id": "C113", "title": "Kicks and drifts of the leap-frog solver use the integrals over cosmic time", "statement": "The factors that Kick and Drift of nbody/qpm.py compute from the logarithms of two scale factors are the integrals of dt/a and of dt/a^2 over the cosmic time between them, for every solution a(t) of the equation of Friedmann, with a relative error of less than 1e-8 for pieces of up to 0.1 in log a; forwards and backwards.", "quantifier": "for all densities of matter > 0 and vacuum >= 0 with non-negative curvature term, all H0 > 0, all expansion histories and all pairs of times with |log a1 - log a0| <= 1/10", "why_tests_cant": "A test compares a few factors with another numerical integral; the claim is about an integral over time for all parameters.", "anchors": ["nbody/qpm.py:40-50", "nbody/qpm.py:58-69", "nbody/cosmology.py:154-163"]}
{"id": "C114", "title": "The growth function solves the equation of linear growth, and the comoving distance is invertible", "statement": "Ea is the expansion rate of the equation of Friedmann in units of that today. Along every expansion history the function that Dplus tabulates solves the equation of the growth of small fluctuations, D'' + 2 H D' = 3/2 Omega_M H0^2 a^-3 D; D is 1 today; in the universe of Einstein and de Sitter Dplus is 2/5 a up to a relative error (exp(-20)/a)^(5/2), the decaying mode that the start of the table at exp(-20) leaves in. The comoving distance is zero today, has the derivative -1/(a^2 E) and is strictly decreasing, so a can be found from it.", "quantifier": "for all densities of matter and vacuum for which the universe expands at all times, all expansion histories, all scale factors > 0", "why_tests_cant": "A differential equation for all times and parameters cannot be tested at points; tables of values have no derivative.", "anchors": ["nbody/cosmology.py:59-100", "nbody/cosmology.py:126-176", "nbody/cosmology.py:213-224"]}
{"id": "C115", "title": "Modes of painted particles are the true amplitudes plus aliases of known strength", "statement": "When any particles are painted with the cic, tsc or pcs window and transformed with r2c, the mode in which a wave is stored is the sum, over all waves that look alike on the mesh (they differ by multiples of the number of cells), of the Fourier amplitude of the point particles times the Fourier transform of the window. Therefore the mode compensated with get_compensation is the amplitude of the point particles, up to the total mass times a factor that falls like (2|k|/N)^p with p = 2, 3, 4 for cic, tsc, pcs. The power of the window in the shot noise is the sum of the squared transforms over the same waves.", "quantifier": "all particle positions and masses, meshes of any dimension, numbers of ranks, wave vectors, the windows cic, tsc, pcs of native size", "why_tests_cant": "An infinite sum over aliases and a bound for every particle distribution cannot be established by comparing a few meshes.", "anchors": ["pmesh/window.py:65-80", "pmesh/pm.py:1794-1870", "pmesh/_window_imp.c", "pmesh/_window_tuned_cic.h", "pmesh/_window_tuned_tsc.h", "pmesh/_window_tuned_pcs.h"]}
{"id": "C116", "title": "Values read from a mesh are those of a continuous function", "statement": "Reading a field with the cic, tsc or pcs window at any position gives the sum, over all waves, of the mode in which the wave is stored times the Fourier transform of the window times the wave at the position. Therefore a field whose modes were compensated with get_compensation is read as the continuous function with these modes, up to an error of at most the sum over modes of their amplitude times a factor that falls like (2|k|/N)^p with p = 2, 3, 4 for cic, tsc, pcs.", "quantifier": "all fields, positions, meshes of any dimension, numbers of ranks, the windows cic, tsc, pcs of native size", "why_tests_cant": "Tests read smooth functions at a few positions; they cannot bound the error for every field and position.", "anchors": ["pmesh/pm.py:745-791", "pmesh/window.py:65-80", "pmesh/window.py:157-205", "pmesh/_window_imp.c"]}
{"id": "C117", "title": "A particle-mesh solver computes pair interactions that depend on separations only", "statement": "When particles are painted, the modes are multiplied by a transfer function and compensated for painting and for reading, and the result is read at any position, then the value is the sum over particles of the mass times a function of the separation (the Fourier sum of the transfer function), up to an error of at most the total mass times the sum over modes of |G| ((1+e)^2 - 1), where e falls like (2|k|/N)^p. Apart from this error the position of the particles relative to the mesh and the decomposition over ranks do not matter.", "quantifier": "all particle positions and masses, transfer functions with the symmetry of real fields, meshes of any dimension, numbers of ranks, the windows cic, tsc, pcs of native size", "why_tests_cant": "The error bound is for every configuration of particles and every transfer function; tests can only sample some.", "anchors": ["pmesh/pm.py:1794-1870", "pmesh/pm.py:745-791", "pmesh/window.py:65-80", "nbody/gravpm.py"]}
{"id": "C118", "title": "A tabulated power spectrum is interpolated as power laws and normalised to sigma8", "statement": "PowerSpectrum(k, p, sigma8) passes through all points of the table up to one factor, is a power law between them and constant outside; the factor is such that the variance of the density in balls of radius 8 is sigma8 squared. Without sigma8 the table is kept and the attribute sigma8 is the amplitude of the table.", "quantifier": "all tables of positive numbers with increasing k, all sigma8, all wave numbers and radii", "why_tests_cant": "The property is an integral over all wave numbers, for all tables; the code has no tests.", "anchors": ["nbody/powerspectrum.py:2-57"]}
{"id": "C119", "title": "A window is found by its name and keeps its kind when it is resized", "statement": "FindResampler accepts a window, which it returns unchanged, and each documented name in capitals or small letters, for which it returns the window whose kernel has that name, at its native support; everything else raises TypeError. The tuned and the plain window of the same spline do the same for particles of the default size. resize keeps the kernel and has the support asked for; resizing twice is resizing once, and resizing to the own support changes nothing. The compensation belongs to the kernel of that name.", "quantifier": "all strings and objects passed as resampler; all names, supports, meshes and particles; all frequencies", "why_tests_cant": "All strings must be covered, and for each of the 48 names all meshes and particles.", "anchors": ["pmesh/window.py:56-63", "pmesh/window.py:222-263", "pmesh/_window.pyx:66-116", "pmesh/_window_imp.c:246-459"]}
{"id": "C120", "title": "Line integral convolution with normalize=True follows directions only, along lines of the length asked for", "statement": "With normalize=True lic uses vectors of length 1 with the direction of the given vectors, and zero where these vanish. Multiplying the vectors by positive numbers, cell by cell, or normalising them beforehand does not change the result. All samples of the texture lie within half the length and half a step of the cell. With an even kernel the result does not change if all vectors are reversed. The result does not depend on the number of ranks.", "quantifier": "all vector fields, positive factors, textures, kernels, lengths, steps, meshes, and numbers of ranks", "why_tests_cant": "All vector fields and factors must be covered; streamlines wander through the mesh and over ranks.", "anchors": ["pmesh/lic.py:43-78"]}
{"id": "C121", "title": "A step of the optimiser adds a multiple of the direction, and inner products change along a line as a parabola", "statement": "addmul(a, b, c, p) of the vector space of abopt is a + b c^p for numbers and fields c, for real fields, complex fields and arrays of particles. It keeps spectra of real fields Hermitian. The inner product of the vector space is linear in the result: dot(addmul(a, b, c), d) = dot(a, d) + c dot(b, d), and the squared length along the line is dot(a, a) + 2 c dot(a, b) + c^2 dot(b, b), on any number of ranks.", "quantifier": "all fields, arrays, factors, powers, meshes, metrics, and numbers of ranks", "why_tests_cant": "The parts of complex numbers are stored as an additional axis of a real array, so that whether a formula means complex arithmetic depends on the class of each operand; a step with a real factor, which tests use, does not show it.", "anchors": ["pmesh/abopt.py:23-58", "pmesh/pm.py:156-218", "pmesh/pm.py:245"]}
{"id": "C122", "title": "The scale invariant index does not overflow", "statement": "get_index computes the index of every mode without overflow of the integers of C, with its cache of the sizes of regions, for every mesh, storage and maxlength; the result is the index that is unique, inside-out and resolution independent.", "quantifier": "all modes, meshes, storages and values of maxlength", "why_tests_cant": "Overflow needs meshes that no test can afford, and silently gives wrong or equal indices.", "anchors": ["pmesh/_invariant_imp.c:20-200", "pmesh/_invariant.pyx:17-53"]}
{"id": "C123", "title": "Timers show the time spent in their blocks", "statement": "After any program that uses the blocks `with T[key]:` of tools.Timers, str(T) has one line for each key in the order of first use, with the total time that passed inside the blocks of this key, also for nested blocks, repeated blocks and blocks left by an exception; exceptions are passed on.", "quantifier": "all programs of blocks, all keys, all durations, any nesting", "why_tests_cant": "Tests time one block; nesting, repetition and exceptions combine in unboundedly many ways.", "anchors": ["pmesh/tools.py:32-51"]}
{"id": "C124", "title": "The load of a domain does not overflow and does not depend on which rank holds the particles", "statement": "GridND.load(pos, gamma) is the gamma-th power of the number of particles in each domain, for any number of particles and any distribution of them over the ranks, with the integers and doubles of numpy; so loadbalance separates heavy domains.", "quantifier": "all grids, particles, distributions over ranks, gamma", "why_tests_cant": "Overflow needs billions of particles; the type of the result depends on whether some rank is empty, which tests do not vary.", "anchors": ["pmesh/domain.py:409-465", "pmesh/domain.py:468-499"]}
{"id": "C125", "title": "The offsets of a layout do not overflow", "statement": "The offsets that Layout stores for sending and receiving are the numbers of items of the ranks before, so that the blocks of the ranks fill the buffers of exchange and gather without gaps or overlaps, for any numbers of items.", "quantifier": "all numbers of ranks and of items", "why_tests_cant": "Overflow needs billions of particles on one rank.", "anchors": ["pmesh/domain.py:92-123", "pmesh/domain.py:602"]}
{"id": "C126", "title": "The leap-frog solver moves free and uniformly accelerated particles exactly", "statement": "During QPM.run, whenever the caller is told that a step is done, a snapshot is to be written or the run is finished, particles without forces have their initial velocity and are where the free motion takes them until the time that is told, inside the box; particles with a constant acceleration have the velocity of this time.", "quantifier": "all starts, steps, output times, boxes, numbers of particles, initial positions and velocities", "why_tests_cant": "Splitting of drifts at output times and of kicks at half steps interact for arbitrary output times; errors show only as slightly wrong snapshots.", "anchors": ["nbody/qpm.py:39-80", "nbody/qpm.py:111-169"]}
