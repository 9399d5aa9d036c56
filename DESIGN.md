# Formal model of Subaru-PFS/drp_1d (RedshiftLibrary) in Lean 4

## Approach

The model is a set of small total functions under `lean/Verif/Model/`, one file per
part of the library, each definition citing the file and lines of `/repo` it models.
Property theorems live in `lean/Verif/Props/`, one file per property group, with the
specification predicates they use in the same file or in `lean/Verif/Spec.lean`, and an
`example` beside each that meets the hypotheses.

Conventions

* `Res α` is the outcome of a C++ call: `ok a`, `throw e` (a library exception with its
  `ErrorCode`), or `ub` (undefined behaviour: an out-of-bounds access, `pop_back` on an
  empty vector, dereference of `end()`...). Properties about safety say "never `ub`".
* `std::vector` is `List`; element reads that the code does not guard go through an
  operation that yields `ub` when out of range.
* Code that only compares is generic over a `LinearOrder` (Int32 and NaN-free Float64 are
  instances). Code that computes is over a linearly ordered field or `ℝ`: rounding,
  overflow and NaN propagation of IEEE doubles are not modelled unless said so.
* `Int32`/`size_t` are unbounded integers, except where a property is about wrap-around.

## Trusted base

* Lean 4.33 kernel; the axioms of every theorem are among `propext`, `Classical.choice`,
  `Quot.sound` (none of our own; no compiled evaluation).
* The reading of the C++ source into the model (nothing is executed).
* C++ standard library calls replaced by their specification: `std::lower_bound`
  (partition point), `std::sort` (theorems quantify over every function that returns a
  sorted permutation, so over every order of equal elements), `std::stable_sort`,
  `std::map`, `std::vector`, `std::round`, `std::floor`, `std::ceil`.
* `exp`, `log`, `sqrt` are the real functions; `erf` is defined by its integral. In
  generic ordered-field models the square root is a parameter `sq` with `sq x * sq x = x`
  for `x >= 0`.
* GSL: linear interpolation is modelled; the cubic spline and the weighted linear fit are
  parameter functions (theorems hold for all of them); GSL errors become
  `EXTERNAL_LIB_ERROR` through the handler installed by context.cpp:53-68.
* boost property tree: an abstract tree; conversions of strings into numbers abstract.
* Numbers: rounding and overflow of doubles are not modelled. `log` of a non positive
  number, division by zero and the square root of a negative number are reported as `ub`
  (in the amplitude models 0/0 is the NaN `none`). `Option K` is a double that may be a
  NaN. A `Float64` to integer conversion out of range, and wrap-around of `size_t`, are
  modelled where a property depends on them.
* Loops that are not structurally recursive use fuel; exhaustion is reported as `ub` and
  the totality theorems show that it does not happen.

## Plan per property

| id | property | model and proof |
|----|----------|-----------------|
| C01 | Range intersection is set intersection | generic LinearOrder model of CRange; theorem: membership iff |
| C02 | Joining ranges keeps the covered set and yields disjoint sorted ranges | std::sort as insertion sort (stable choice of a sort; only sortedness+permutation used), fold; induction on the list |
| C03 | Closed interval indices select exactly the samples in the range | lower_bound as partition point; the full "iff" is false with duplicated end values (negation proved), proved for strictly increasing vectors and a weaker one for sorted vectors |
| C04 | Enclosing interval indices bracket the range tightly | same model, UB outcome explicit |
| C05 | Linear grids stay in the range, are regular and maximal | ordered field with floor; count = trunc |
| C06 | Logarithmic grids are geometric, in range and maximal | real exp/log |
| C07 | Centred windows contain their centre and stay in the range | composition of C05/C06 models |
| C08 | Index lookups return the exact, the closest lower, or the closest index | generic ordered group |
| C09 | Redshift grid refinement keeps a sorted grid containing the refined subgrid | list surgery model |
| C10 | Mask overlap fraction | list model over Nat weights |
| C11 | Warnings accumulate and are never lost before reset | state machine, BitVec 32 flags |
| C12 | The median of a small odd window is its middle order statistic | compare-exchange networks, 0/1 principle by a kernel computation over all boolean inputs lifted by a monotone map lemma |
| C13 | The median for other sizes is an order statistic | sort-based for Beers; Wirth selection loop with array and UB outcome, termination by measure |
| C14 | Scope stack structure invariant | state machine invariant by induction over ops |
| C15 | Scoped guards restore the scope stack | interpreter for guard programs with exceptions |
| C16 | Scoped names address exactly the current scope | string lists |
| C17 | The result store is write-once and isolates names | refinement to a finite map |
| C18 | Parameter driven decisions | decision functions over an abstract parameter tree |
| C19 | Reported peaks are local extrema | loop model over lists with UB outcome; the claim is false for some planks (negation), proved otherwise |
| C20 | Peak separation | greedy filter model |
| C21 | Peak truncation keeps the highest | sort + take |
| C22 | Peak search is memory safe | negation with witness + guard under which it is safe |
| C23 | The log-sum-exp integration equals the log of the trapezoid integral | real analysis |
| C24 | The redshift PDF integrates to one | real analysis on top of C23 |
| C25 | The PDF does not depend on additive constants | same |
| C26 | Marginalisation over templates is the evidence weighted mixture | real model with the seed kept as a constant |
| C27 | Log priors are normalised | real model |
| C28 | Redshift uncertainty from a parabola | real model |
| C29 | Candidate integration ranges are disjoint and contain their candidate | loop model over candidates |
| C30 | Candidates are ranked by integrated probability | insertion/stable sort |
| C31 | Prior table lookups stay in the table | integer/real clamp; negation at the last bin |
| C32 | PDF regularisation and interpolation | interpolation model, UB witness |
| C33 | The cached sortedness of a spectral axis is right | tri-state cache machine; negation + partial |
| C34 | Masking an axis keeps exactly the selected samples in order | zip/filter |
| C35 | Lambda range clamping | case analysis |
| C36 | Wavelength masks and index lookup | list model |
| C37 | Linear rebinning interpolates and masks | cursor loop model with UB outcome |
| C38 | Smoothing windows stay in the spectrum | window sums |
| C39 | Flux correction repairs every invalid sample | loop model |
| C40 | Validation accepts only spectra with all samples valid in the range | negation (last sample never validated) + partial |
| C41 | Template catalogue lists stay consistent | state machine |
| C42 | ISM/IGM corrections are reversible and commute | state machine over vectors |
| C43 | Continuum decomposition | state machine |
| C44 | Best chi2 combination | real model on top of C23/C26 |
| C45 | Best probability combination | real model, lists of log priors |
| C46 | Integrated probability of the candidates | trapezoid sum over the candidate window, real model |
| C47 | Log sampling is announced only for log-regular axes | state machine over histories; negation for offsets, partial otherwise |
| C48 | Sub-sampling mask | loop model over lists |
| C49 | Axis resolution | ordered field/real model |
| C50 | Nearest, spline and fine-grid rebinning | ngp loop model, spline as a parameter, fine grid |
| C51 | Spectrum validation end to end | fold model |
| C52 | Trapezium integration of the flux | fold model, refinement to the sum |
| C53 | Sliding median and mean continuum | whole pipeline (borders, even/odd passes, resampling), GSL border fit as a parameter |
| C54 | Derived templates follow the LSF and the spectrum sampling | state machine over LSF changes; negations + partial |
| C55 | Calzetti dust attenuation | table interpolation; memory safety |
| C56 | Line profiles and their derivatives | real analysis (integrals, derivatives by HasDerivAt); erf defined by its integral |
| C57 | Line spread functions | sum type with constructor checks; table interpolation |
| C58 | Intergalactic extinction | table convolution and lookups; negations + partial |
| C59 | Line profile absorbed by the intergalactic medium | real model; negation for the flux |
| C60 | Logarithmic resampling keeps spectra, redshifts and templates aligned | real exp/log grids; alignment theorem through integer steps |
| C61 | Rounded log-sampled wavelengths are restored | real model with bounded rounding noise |
| C62 | Resampled inputs correspond to the inputs | state machine over spectra and categories; negations + partial |
| C63 | Air to vacuum conversion keeps wavelengths ordered and is invertible | real refractive index, contraction argument |
| C64 | Template amplitude is the least squares amplitude | least squares over an ordered field with a square root |
| C65 | Template fit explores every dust and IGM configuration | loop model over dust x IGM x observations; refinement to the specification |
| C66 | Classification gives probabilities and the most likely category | real model (exp), NaN and -infinity explicit |
| C67 | Fitted amplitudes of a line element follow its nominal amplitudes | ordered field with NaN as none |
| C68 | Two-line amplitude rules bound the second line and keep the ratio in range | same elements; IsFirst specification of the search by tag |
| C69 | Strong line rules cap the weak lines | loop invariants over elements and lines |
| C70 | The regulament applies exactly the selected rules, in order, to amplitudes only | composition of rules |
| C71 | Supports of a line element | element.cpp prepareSupport modelled pass by pass (Model/EltSupport); invariant `Grouped` (a map from lines to representatives, merged support = union of the theoretical ones, activity = same group) kept by every merge, each pass with a remaining overlap decreases the number of supports. Partial: separation needs at most 21 lines (20 passes); supports may share an end sample (counterexample). |
| C72 | Flux model of an element counts each line once | element.cpp addToSpectrumModel / initSpectrumModel modelled as loops on the supports; from the grouping of C71 the double sum over supports and active lines is exchanged so that each line counts once. The velocity derivative misses merged lines (counterexample). |
| C73 | Fitted amplitude of an element is the non-negative least squares amplitude | Model.FitAmp: cross products summed over spectra, supports and samples; Props.FitAmpProps: the chi-square is a quadratic polynomial of the amplitude with the accumulated sums as coefficients; counterexample for shared end samples |
| C74 | Samples, fitting groups and amplitude offsets of a list of elements | `Model/EltList`: supports as left by prepareSupport, std::map as key-sorted list; fold invariants. |
| C75 | Overlapping elements and groups of the hybrid fit | `Model/EltList`: line positions and windows as functions; invariant of the loop over the valid elements. |
| C76 | Velocity groups | `Model/EltList`: tag map, multiset of entries of every tag. |
| C77 | Joint fit of amplitudes | `Model/SvdFit`: solver as a parameter; rows shown equal to the specified joint model, normalisation removed, optimality transferred; positivity by following all the branches for an arbitrary solver; existence of an exact solver by Gram-Schmidt induction. |
| C78 | Every catalogue line is modelled by exactly one element | `LineCat`: catalogue as a sorted map folded from additions; loaders as functions of it; permutation and lookup lemmas by induction over the map |
| C79 | Line ratio catalogues start at zero and keep what is set | `LineCat.Ratio`: record with map of velocities; induction over the sequence of additions |
| C80 | Loops over several spectra visit each spectrum once | `SpcIndex`: the shared index as an explicit state threaded through the loop body; induction over the remaining spectra |
| C81 | The model spectrum is the continuum plus the lines | `SpcModel`: model, continuum and supports as lists; each refresh as a fold of the flux model of C72; pointwise characterisation by induction over the elements |
| C82 | The spectrum with the lines removed | `SpcModel.linesRemoved`: pointwise, from C81 and the maximum of the weights over the supports |
| C83 | Residual under elements | `SpcModel.sqResidual`, `rms`, `Errs`: sums over the sorted support of C74; the errors by induction over the operations on the model |
| C84 | Merits and likelihood constant of the line model | `Merit`: the loops over spectra and index windows as sums over the samples of a half open range; expansion by algebra |
| C85 | Cumulated signal to noise of the lines | `Merit.merge`: the absorb loops by induction; sums over merged ranges |
| C86 | Searches of line offsets and profiles | `LmSearch`: nested loops flattened into one list of candidates, first minimum by induction; the accesses to the shared index as lists of actions interpreted by `exec`, all branches of the fits being data |
| C87 | Precomputed continuum fits are kept sorted and found | Store as grid + rows + count; insertion position as the partition point of `std::upper_bound`, whose precondition is proved as an invariant; content by induction on the history (permutation, order, stability). |
| C88 | Normalised polynomials are the same function | Field identities on the modelled functions. |
| C89 | Flux in a photometric band is a mean over the band | Trapeze loops as folds, closed to finite sums; linearity, flat spectrum, bounds by monotonicity of the sum. |
| C90 | Photometry enters the template fit once, as a weighted least square | Loop on the bands as a fold with the kept sums; invariant gives the direct sums; second IGM index composed with the first. Counted twice when all bands are in the IGM range: proved. |
| C91 | Likelihood constant with photometry | Value of the constant, compared with the Gaussian constant over the reals. False of the code: sign of the logarithms of the photometric errors. |
| C92 | Photometric fluxes of the model | `ComputeSpectrumModel` end; the photometric values do not depend on the amplitude: proved, so the claim is false of the code unless amplitude 1. |
| C93 | The line model fit reports one consistent best fit | `TplRatio.fit`: the two loops with the best merit variables, the tables of the catalogs (results replaced by the pair (continuum, catalog) they come from), the reload of the continuum and `resetToBestRatio`. Invariant on the lexicographic order of fits; merits in `WithTop K`. Priors of the lines: proved counterexamples. |
| C94 | Restoring the best ratio catalog gives back the fitted amplitudes | `keep` (`updateTplratioResults` for an element), `setNominal`, `restore` over `Amp.setAmplitude`; first positive line by induction, round trip by congruence of `setAmplitude`. |
| C95 | Nominal amplitudes of a ratio catalog go to the right lines | `corrAmps` over an association list of lines with unique identifiers; table lemma and first failure. |
| C96 | Correction of fitted amplitudes by the closest ratio catalog | `fitSums`, `fitChi`, `fitValue`, `bestFrom`, `getBestFit`; parabola argument for the least squares, and a universal out of bounds theorem. |
| C100 | First pass fits every redshift, and a null model is reported | `Model/SecondPass.lean`: the loop of the first pass with the fit as a parameter function on an abstract state; loop invariant. `Props/SecondPassProps.lean`. |
| C101 | Second pass recomputes exactly the windows of the candidates | `Model/SecondPass.lean`: nested loops of the second pass with the fit as a parameter; frame lemma plus last writer. `Props/SecondPassProps.lean`. |
| C102 | Velocity search around a candidate | `Model/SecondPass.lean`: velocity loops with the merit as a parameter; first minimum over the flattened list of tests. `Props/SecondPassVel.lean`. |
| C103 | Line measurement returns the best redshift | `Model/SecondPass.lean` `lineMeas`; first minimum. `Props/SecondPassVel.lean`. |
| C97 | Line model results stay aligned with the redshift grid | `Model/LmResult.lean`: the result as a record of parallel lists, `Init` and `updateVectors` over the insertion of subgrids (C09); induction over windows. `Props/LmResultProps.lean`. |
| C98 | Redshifts of each refinement window are found in the refined grid | `Model/LmResult.lean`; the property is false for windows that meet: proved for windows that do not, counterexample proved. |
| C99 | Second pass windows around the candidates | `Model/SecondPass.lean` windows; linear over an ordered field, logarithmic over the reals. `Props/SecondPassWindow.lean`. |
| C104 | First pass candidates give disjoint second pass windows | Peak filter of C20 (`Extremum.Overlap`) related to the windows of `SpanRedshiftWindow`: real analysis inequality `(1-h) e^(2h) ≤ 1+h` for the log sampling; then `refine_windows` of C99. Negation proved for negative redshifts with linear sampling. |
| C105 | Candidates of one or two first passes | Model/LmCands: parallel vectors with null pointers; loops proved by a filling invariant; `Holds` relates the object to a list of entries. Groups of velocities not modelled. |
| C106 | Models marginalised in the redshift PDF | Model/ChiArray: arrays built by the nested loops proved equal to a `flatMap`; sum and positivity of model priors; acceptance by the checks of Model/Pdfz. |
| C107 | Redshift priors from the lines | Model/ChiArray: loops over lines with early exit, first largest amplitude; priors computed with Model/Pdfz (C27), sum of three terms. |
| C108 | Final candidates are saved consistently | Model/LmCands: loop over candidates over an abstract fit; inversion of each step and frame (`FrameSet` of C101). |
| C109 | Precomputed continuum fits of a pass are complete and ranked | `Model/ContFit.lean` (`fill`) over the store model of C87; invariant: the store is the result of the `Add` calls of the rows done so far; `given` of a row = the column of the templates (no duplicates). |
| C110 | Negative and null continua are decided on all redshifts | `precompute`, `evaluate`, `findMax`; the store of C109, then the greatest sigma characterises `AllBelow`. |
| C111 | Continua fitted again are the best ones of the first pass | `refitInfo`, `refitRank` over `getClosestLowerIndex` (C08), `GetFitValues` (C87) and `GetTemplateByName`. |
| C112 | Each second pass candidate uses its own continuum | `secondStores`, `storesLoop` (with the break), `inject`, `Mgr.load`; induction over the candidates, inversion of `precompute`. |
| C113 | The template fitting operator fits the pass | `makeOper`, `fftActive`; induction on the history of calls. |
| C114 | Grid of the first pass | `firstGrid` over `SpreadOverEpsilon` (C05) and its log version (C06). |
| C115 | Detection level of a sample | Model/Peaks: window of a sample by `indexAt` (C36), median and MAD (C13); `near` is the list of the fluxes within half a window; UB of the median of an empty window. |
| C116 | Peaks are the maximal runs above the level | Model/Peaks: scan with an open run proved equal to the unique list of maximal runs (`Runs`, uniqueness proved). |
| C117 | Peaks at the border | Model/Peaks: backward loop with `eraseIdx`, loop invariant; the borders computed and not stored are modelled. |
| C118 | Ranges for the fit of a peak | Model/Peaks: integer arithmetic of the enlarged ranges with neighbours. |
| C119 | Signal to noise of a peak | Model/LineDetect: masked samples, first maximum, medians by filtering; noise quadrature or MAD; the quotient is an extended number (`Quo`). |
| C120 | First stage of line detection | Model/LineDetect: the loop over the peaks with the Gaussian fit as a parameter function; invariant relating catalogue, retest list and statuses to `Says`. |
| C121 | Weak lines near strong ones are retested | Model/LineDetect: selection, removal of intervals, retest in the reduced spectrum; any valid sort. "At most one line per peak" and "does not fail" are refuted by counterexamples: partial. |
| C122 | Indices in the spectrum without strong lines | Model/LineDetect: rank of a kept sample; proved when the first sample is kept, off by one otherwise (`C122_shift`): partial. |
| C123 | Line matching | Model/LineMatch: nested loops proved to give the set `SetOf` of the pair; duplicates by `Same`. |
| C124 | Best redshift of a line matching | Model/LineMatch: loop invariant of a first lexicographic maximum. |
| C125 | Redshift candidates around the solutions | Model/LineMatch: truncation of quotients, membership after sort and `unique`. |
| C126 | Rules on the solutions of line matching | Model/LineMatch: partition by the verdicts, the condition of each rule; the rule as documented is refuted (operator precedence in `isLineInsideRange`): partial. |
| C127 | FFT correlation equals the direct sums | `Model/Fft.lean`, `Props/FftProps.lean`: the two transforms of FFTW by their mathematical definition over the reals; orthogonality of the roots of unity, then the circular convolution theorem, then the padding/reversal/index arithmetic of `EstimateXtY`; the cached transforms are part of the state |
| C128 | Log-grid fit of a redshift range | `Model/TplLog.lean` (`fitRangez` and below), `Props/TplLogRows/Fit/Range/Total.lean`: invariant of the two loops over the configurations (each row of the table, first smallest chi2), template state from C42, correlation from C127; `C128_total` shows that the fit returns on matching grids; `C128_fft` that the FFT correlation qualifies |
| C129 | Redshift ranges of constant IGM curves | `findZRanges`, `Props/TplLogZRanges.lean`: ranges characterised by the cuts (redshift of the Lyman alpha line at the first wavelength, bounds of bins). Not true in two cases, both proved: two cuts without redshift between give an empty range (the fit then never returns), a redshift equal to a bound is put with the lower bin |
| C130 | Part of the template used for a redshift range | `findTplIndex`, `Props/TplLogIndex.lean`: over any ordered field with a function that is a logarithm within half a step; `C130_log` for the real logarithm |
| C131 | Log-grid fit of all redshifts | `fitAllz`, `Props/TplLogAll.lean`, `Props/TplLogIndex.lean`: induction over the ranges; `C131_total` on exact grids. The last part is false: the configuration is chosen before the prior, and the prior is not that of the direct operator for a non positive mean or a null strength (counterexamples) |
| C132 | Sub-sampling of spectra and templates to the redshift step | `Model/TplLogSub` models `CheckRedshifts`, the ratio and the sub-sampling of the template over an ordered field. Theorems: the list of spectra accepted and what each holds (an explicit progression of indices), the refusals, the alignment of template and spectrum after sub-sampling for every redshift, and the counterexample of decreasing redshifts. |
| C133 | Range and templates used by the template combination | `TplComb.rebinTemplates`; induction over the templates with the clamped range of each (C36) and the mask theorem (C34/C48) |
| C134 | The template combination fit is the best combination | `TplComb.basicFit`; the solver is a parameter with the specification of a weighted least squares solution; invariant of the two loops over the configurations (the table so far holds minima), the cached extinction being related to the curves by the invariant of C64 |
| C135 | Amplitudes reported by the template combination | same invariant for the last fit; witness in a two-configuration environment evaluated by the kernel |
| C136 | Units of the template combination fit | simulation: each step of the loops commutes with the change of units |
| C137 | Template combination with one template, and masks | the first fit reads the element (0,1); simulation for the mask |
| C138 | Results of the template combination over the redshifts | `TplComb.compute`; the sort is an insertion sort of the pairs (redshift, index); permutations have the same sorted list |
| C139 | Model of the template combination | `TplComb.spectrumModel` and `extinction`, related to `basicFit` through the curves |
| C140 | Candidates of the redshift PDF | `PdfOp.compute`: windows and candidates are maps by identifier; the identifiers are proved distinct (a word ending with an underscore cannot be compensated by a number); the rest combines C19, C26/C44 and C46 |
| C141 | Runs of the template solvers over the components | `Model/TplSolve.lean` (`tfSolve`, `tfAll`, `tfRun`, `tcSolve`; the operator is any function of the selected components and flags; the store is the one of `Model/ResultStore.lean`); induction over components and templates |
| C142 | Spectrum components accepted by the solvers | `tfComponent`, `tcComponent` against the four names and the schema |
| C143 | Merits given to the PDF by the template solvers | `tfArray`, `tcArray` (loops over the map of results and tables); invariants of the loops, with `Pdfz` for the combination |
| C144 | Parameters reported with the candidates of the template solvers | `tfExtrema`, `tcExtrema`; induction over the templates, composition with `tfArray` (C143) and the PDF operator (C140) |
| C145 | Axes of the templates to combine | `checkTemplates` equal to a specification for all lists |
| C146 | Result of the fit of a template on the redshift grid | `tfCompute`, `TfRes.setAt`, `snrOf`; loop invariant |
| C147 | The vector of the non-linear line fit has one place per parameter | `Model/Lbfgs.lean` (`layout`, `bounds`, `problem`), `Props/LbfgsLayout.lean`: exact number and positions of the parameters, exact set of entries never written (`C147_set`); false of the code for a group of two types with an element after the first one of the other type (`C147_gap_ub`, `C147_counterexample`). |
| C148 | The cost of the non-linear line fit is the chi2 in spectrum units, a function of the point | `Props/LbfgsCost.lean`: evaluation specified element by element (`unpack_spec`), the cost is the chi2 in spectrum units when the lines in range did not change since the previous evaluation (`C148_cost`); not a function of the point otherwise (`C148_path_counterexample`). |
| C149 | The non-linear line fit stores the final point, within the configured bounds | `Props/LbfgsResult.lean`, `LbfgsBounds.lean`, `LbfgsFit.lean`: the minimiser is any list of evaluated points and any outcome; invariants of the evaluations (`Drift`), of the storing, of the final loop. |
| C150 | The non-linear line fit can reach every allowed absorption amplitude and nothing else | `Props/LbfgsFit.lean`: exact set of the reachable amplitudes (`C150_reach`: the limit is multiplied by the largest flux), stored lines below the limit (`C150_capped`), two counterexamples. |
| C151 | Every element in range gets an uncertainty from the non-linear line fit | `Props/LbfgsFit.lean`: `C151_uncertainty` for the elements up to the first one out of range (with `C149_result`), counterexample for the following ones. |
| C152 | Search of the line matching method | The loop as a state machine with fuel, detection and matching as parameters, ghost history of the detections (Model/LmatchSolve); invariant over any number of iterations; lexicographic measure for the end of the sweep; witness of the endless search. |
| C153 | Derivatives of the Gaussian fit | GaussF and GaussDF at one sample over the reals (Model/GaussFit), HasDerivAt of the residual for each parameter. |
| C154 | First guess and result of the Gaussian fit | ComputeFirstGuess and Compute with GSL as a parameter (Model/GaussFit); counting argument on the sorted list for the median, scan invariants for the extrema. |
| C155 | Redshift grids of the solvers | GetRedshiftSampling of CObjectSolve and CLineMeasSolve, createRedshiftGrid (Model/ObjSolve), on top of the grids of C05/C06 over the reals. |
| C156 | Lines and continuum fitted together | Model/SvdLc: the linear system (elements, template, powers of the wavelength), the normalisation, the solver as a parameter, the continuum manager before and after. Proved: minimum of the chi-square in physical units, stored values, refusals; the model left is the fitted one for emission lines with amplitudes that are not negative; counterexamples for absorption lines, negative amplitudes and the error of the continuum. |
| C157 | Derivatives of the model of a line element | element.cpp 510-554, 635-759 and elementparam.cpp 275-306 over ℝ (Model/EltDeriv.lean), profiles by their three functions (instances: the four classes); `IsDeriv` = succeeds around the point and has the derivative. Negative amplitudes: counterexample |
| C158 | Position, width and redshift derivative of a line element | element.cpp 111-141, 454-504, 525-554, 764-802; redshift derivative proved for locally constant widths (`_partial`), negation with a velocity-driven symmetric line, where the true derivative is twice the value given |
| C159 | Direct integration flux | Model/DirInt.lean: windows as `indexRange`, `joinIntersections`, the two sample loops, `integrateTrapez`; proved from C52, C81 and a version of C02 for possibly empty ranges; `InWindow` is the independent description of the samples of a window |
| C160 | Direct integration over several spectra | Model/DirInt.lean `fluxAll`, `uncertainty`; fold over the spectra; positivity of the trapezium error |
| C161 | Solution extracted from a line fit | Model/LmSol.lean: `GetModelSolution` as a fold on the catalogue; `RowSpec`, `CplxSpec` state the rows and complexes independently; invariant over the prefix of lines. |
| C162 | Loading a solution restores the model | Model/LmSol.lean: `LoadModelSolution` as a fold on lines zipped with rows; invariant `Loaded`; the round trip by congruence of the extraction. |
| C163 | Profiles of a line model fit at one redshift | Profiles (kind and parameters), index list of an element, `setLyaProfile`, reset, `fitLyaProfile` modelled in Model/Lya.lean; the final profile of each line given by cases, history independence by comparing two runs; a catalogue with a symmetric Lyman alpha is the counterexample to history independence |
| C164 | Samples outside of the lines | `getMask`, `getOutsideLinesMask`, `getOutsideLinesSTD` and the end of `updateFromModel` in Model/Outside.lean on top of the supports (Model/EltSupport.lean); the mask by an invariant of the loop on the samples, the windows from C71 |
| C165 | Strong lines and strongest line flags | Folds over lists with an invariant holding the first greatest named amplitude; the count of elements as the cardinal of a set (Model/Strong.lean, Props/StrongProps.lean) |
| C166 | Template on the axis of the spectrum and model spectrum | Composition of the models of clamping, linear resampling, overlap and extinctions; the invariant of C42 carried through the calls (Model/TplModel.lean, Props/TplModelProps.lean) |
| C167 | Template fit over the redshifts | Composition of the resampling (C166), of the indices (C03) and of the fit at one redshift (C65), induction over the redshifts (Model/TplCompute.lean, Props/TplComputeProps.lean) |
| C168 | Continuum indexes | Invariant of the sums over the masked samples, weighted least squares by the moments, over any ordered field with a square root (Model/ContIdx.lean, Props/ContIdxProps.lean) |
| C169 | Template fit with photometry at one redshift | `Model/PhotFit.lean` (resampling on the bands, extinctions on bands and spectrum, sums, loop over the dust indices). `Props/PhotFitBands.lean`: a band is resampled iff covered; `Props/PhotFitMain.lean`: invariant that the template of every band carries the extinctions of the current indices, then least squares of the joint samples (C64). |
| C170 | Strong lines above a signal-to-noise ratio | Loop over the eight names with the two doublet lists as state; each turn characterised by step_spec, the returned set by composing the eight turns. |
| C171 | Datasets of the candidates of a stored result | Objects with their class and payload; the table of datasets is a separate relation Holds, proved equal to the chains of comparisons; getters as dynamic casts. |
| C172 | A masked copy of a template behaves as the template on the kept samples | Model/TplMask.lean: the masked copy constructor on the Tpl model; proved by C03 on the masked axis, a loop-commutation lemma and the C42 invariant of the original's history; IGM counterexample |
| C173 | Each object gets its own inputs | Model/InputCtx.lean: `init` after `reset`, from any context; theorem on the final context, and acceptance by construction of each loop. |
| C174 | The IGM curves used for a spectrum are convolved by its line spread function | Model/InputCtx.lean with Model/Meiksin.lean: invariant "the first curves are a prefix of those held" over any list of objects; counterexample on a table of four wavelengths. |
| C175 | Extinction objects of the templates over a run | Model/InputCtx.lean: invariant over any list of objects on the shared catalogue, refused objects included. |
| C176 | A run of a solver always leaves its warnings and puts the scope back | Model/SolveRun: the block of Compute with its two guards, a destructor that throws ending the program; theorem over any solver given as functions on (scope, store, warnings); the case where the saved name is taken is proved to end the program. |
| C177 | A sequence of stages keeps the results of each apart | Model/SolveRun `session`: induction over the list of stages, with the injectivity of the scoped names (C16). |
| C178 | A copy of a spectrum reads like the original | Model/SpcCopy over the component model of C43; `SameReadings` says what a caller can read; copy, masked copy, assignment and extraction proved member by member; the assignment and the extraction lose members (counterexamples) |
| C179 | A template fit uses the selected component of every observation and saves one model for each | Model/SpcCopy; the context with inputs and resampled spectra, the selection, the two operators; the plain one proved for any context, the log one proved to ignore the selection and to merge the observations |
| C180 | Every log handler receives exactly the messages of its level while it exists | Model/LogTable; histories over a table of eight positions; the specification follows one handler by its own events only; proved when at most eight exist; false with more (proved: a handler dropped once is never called) |
| C181 | Messages logged by several threads are neither lost nor mixed, and the threads do not block each other for ever | Model/LogTable, small-step semantics of threads around the mutex of the log; invariant over any schedule; delivery, order, progress and termination; false when a handler is destroyed by another thread (use after free) or throws (mutex never released) |
| C182 | Second first pass of the line model | `Model/LmSolve.lean`: `Solve`/`compute` over arbitrary (deterministic) passes; renaming of identifiers commutes with the search of candidates (`Props/PdfRename.lean`), so the second pass finds the same redshifts and `combine` adds none; counter-example run for the claim |
| C183 | Results stored by the line model solver | invariant `Runs` over the sequence of stores: names stored are a prefix of the seven, earlier keys unchanged; relational proof for independence of the store |
| C184 | Number of candidates of the line model solver | length bounds through `search`, ranking and truncation; with no window there is one search with one peak allowed; counter-example with two peaks |
| C185 | A solver's templates do not depend on the solvers before it | `TplRun.tfCompute`, `tcCompute`: the two template solvers as steps on the shared catalogue (with its flags) and the result store; the line model solver as any function of the lists it reads. Pre/post-condition rules for steps; two-run simulation for the lists read. True of the template fitting solver for any history; for the others, proved after any history in which no FFT template fitting failed, refuted otherwise (`C185_false`); the flag after a template fitting run characterised (`C185_flag`). |
| C186 | Results stored by the template solvers | Induction over templates, components and candidates: the store after a run, however it ends, is the store before with the results of a list added. |
| C187 | Line catalogues are values | Verif/Model/LineDef.lean: an explicit heap of profile objects, lines own addresses (unique_ptr), every allocation, copy, reset and destruction. C187_refines: any history of calls on the heap gives what the same history gives on plain values (LineDefSpec), exceptions and undefined behaviour included; C187_memory: one owner for each live object, no leak, no dangling address; C187_apart, C187_copy, C187_refused are the user's view. GetFilteredList's map is modelled as a new catalogue with the same support. |
| C188 | A line added is the line described | C188_added_partial on any reached state, with an independent reading of the words (TypeWord, ForceWord, ProfileWord); C188_counterexample for ASYM and ASYMFIT parameters; C188_refused for unknown words. |
| C189 | Changes of the profiles of a catalogue | C189_igm (exact set of converted lines, frame), C189_asym_partial, C189_counterexample (a conversion followed by the asymmetry of a ratio catalogue). |
| C190 | Each stage of a line model run uses the fitter and switches asked for | Model/FitStage: the settings held by the fitting manager as a record, every fit appended to a history with the settings it is made under, failing fits as an arbitrary function of the history; Hoare-style rule `Tri` over the stages |
| C191 | The reported method and the model spectrum agree with the fitter in use | Same model; invariant on the name and model flag kept through the stages; the full claim is refuted for all parameter sets with velocity fit or svdlc and amplitude offsets |
| C192 | Unknown fitting methods and line ratio types stop a run before its first fit | Same model; case analysis on the factories |
| C193 | Iterations of the continuum re-estimation | `Reest.doFit`, `loop`, `estimate`, `factor`; equivalence with the inductive specification `Steps`; result by induction on it; stability for n ≤ 3, counterexample with 8 |
| C194 | A line model fit does not depend on the fits made before | `Reest.fit`, `history`, `setComponent`: the loaded continuum makes the models equal when they agree on the observed data (`SameData`), invariant of any history; without continuum and re-estimation the models are unchanged; counterexample otherwise |
| C195 | Line ratios are compared on equal terms | loop invariant of `Reest.ratios` against each ratio tried alone (`alone`, `BestOf`); counterexample with one re-estimation |
| C196 | An orthogonalised template has nothing left under the lines | `Model/Ortho`: the hybrid fit of the elements on the template with a null continuum (`fitAmplitude` of C73) and the subtraction of the model (C72); scalar product and line flux specified separately. Proof: unit model of each element (C73), additivity of the model over elements, disjoint supports. False for negative projections (amplitude clipped at 0) and for absorption elements (null continuum): counterexamples |
| C197 | A resampled spectrum is made from its present flux | `Model/RebinCache`: the class of interpolation and the fine grid with its flag (moved by `convert`, cleared only by the fine grid `reset`) on top of the flux components of C43. Proof: invariant "the table is the one of the present flux" along histories; the interpolations are those of C37 (`C197_library`). False in general: counterexamples for six kinds of calls |
| C198 | A failing stage or model never hides or disturbs the others | The run of one spectrum as a function of an arbitrary behaviour of the stages (state, model, stage ↦ state, error), with the stack of scopes, the dictionary of errors and the trace of calls; the set of calls of a model is characterised (Shape) and the errors derived from it; silent misses proved as counterexamples. |
| C199 | The pixels kept are those the filters describe | Model `SpecFilter`: dataframe columns (integers, or reals with NaN), filters, conjunction of the conditions, selection, loading of the filters, containers of the reader. Specification by `Meets` (meaning of each instruction cell by cell, bits with `Shares`) and by an increasing list of row indices; induction on filters and columns. |
| C200 | Observations become spectra without losing or mixing pixels | Model `Merge`: factorize, bincount and the concatenated ranges by position, the three methods, the ranges and names of the parameters. Sorted lists are decomposed in blocks of equal wavelengths (`Blocks`), on which the positions are proved right by induction; the sort is any sorted permutation. |
| C201 | Line measurement parameters of the spectrum | `LmParams`: the parameters shared by the spectra of a session, the parameter store of the library, the stages that write and read them (as the environment of `ProcFlow.run`), all solvers and readers arbitrary. Invariant along the trace of the stages for the measurements of a spectrum; relational induction over the stages for the comparison with a new session; failing history with a NaN as witness |
| C202 | Line spread function of the spectrum | `LmParams.lsfStep` on the same state; the width is followed from the reader to the parameters, the store and the arguments; the second observation of a spectrum as witness |
| C203 | The loaded results are exactly those the result store has | Model/OutLoad.lean: the loading loops over the rows of the table, dictionaries as functions, an arbitrary result store. C203_loaded_partial (tables with distinct dataset names, a dataset stored by one method): the loaded output holds exactly what the store has, per level; C203_init, C203_root for the former content and the root level; witnesses: colliding names, a dataset of two methods |
| C204 | An attribute has the same value before and after the results are loaded | get_attribute on both paths. C204_object_partial, C204_candidate; witnesses: linemeas_parameters, warning flags of a method, extended results |
| C205 | Saved redshift PDF is read back unchanged | Model/PdfSave.lean on top of Model/LogZPdf.lean and ZGrid.lean; the sampling of one grid is a parameter. Invariant: the grid is that of the parameters (C205_saved_partial, every history; hypothesis on the read after resize of C32), C205_firstpass, C205_size; witnesses with a centre and with another outcome of that read |
| C206 | PDF attributes asked by name | C206_final_partial for the final PDF; witness for the first pass one |
| C207 | Reliability only from PDFs on the grid of the network | C207_checked_partial: what the checks imply; witness of a coarser step accepted |
| C208 | The result file holds all the results, once, and nothing else | Model/H5Write.lean: the file is the list of what has been written. C208_complete_partial, C208_exact against an inductive specification of the places, C208_once by an invariant kept by every writing, failed or not; witnesses of dropped datasets |
| C209 | When the results can be written | C209_succeeds (each writing goes well when its paths are new), C209_again; witness of what a failure leaves |
| C210 | What a version-2 parameter file can configure | The JSON schemas of version 2 are transcribed to a datatype `Sch` (Model/SchemaV2.lean, by script) with a validator (Model/Json.lean); the key conversion, accessors and four custom checks are Model/ParamV2.lean. Reading a path of a validated value gives a value validated by the schema at that path (induction on the path); the conversion only moves values (invariant of the loop). The unreachable options follow for every file from the closed objects of the schema. |
| C211 | Renaming of the version-1 parameters | The 189 rows are a list (Model/ParamV1.lean, by script); a row acts on every string of the JSON tree. Two renamings compose (mutual induction on the tree); no later row changes a new name of an earlier one (a check over all pairs of rows, by the kernel), so the fold is one lookup. `json.loads` keeps the last of equal keys. |
| C212 | Sections of the version-1 parameters | The three parts on a section and the loop over the models are functions on Python dictionaries with exceptions (Model/ParamV1.lean). Frame and effect lemmas for each part; the loop acts on the sections of distinct models independently (induction). |
| C213 | The Gaussian fit of a candidate is a bounded search around its redshift | loop over the tries with the solver as a parameter; induction over the tries for the windows, the flag and the errors; the support from C04; ordered field for the scaling, real derivatives for the Jacobian |
| C214 | Prior on the line amplitudes in the choice of the fit of a ratio catalog | elements as lists of lines, NaN as `none`; induction over lines and elements; the full claim is false: `C214_nan` |
| C215 | Extension of the parameters: only missing values are added; values given by the user are kept | Model/ParamExt.lean: the extension as a list of writings at paths, the sections being created; induction on the writings gives that a place apart from the written ones is untouched and what each written place holds; the conditions characterised from the parameters. Partial: the code overwrites values of the user whenever they are not *needed*, with witnesses. |
| C216 | Loading of the line ratio catalogs | Model/Calib.lean: the rows of a ratio catalog set in the amplitudes of the main catalog by identity, the list built file by file; induction on the rows and on the files. |
| C217 | Loading of the photometric bands | Model/Calib.lean: the loop on the files of the directory with the bands found so far; the result is the filter of the directory, a permutation of the request. Partial: a band asked twice is refused, with a witness. |
| C218 | Identifiers of the lines of the attributes | Model/Calib.lean: the loop on the attributes with the last catalog used and the identifiers by name. Partial: false when a model has no catalog (the previous one is used) and when two models share a name of line, with witnesses. |

## What is modelled

Modelled (file of `RedshiftLibrary/src/lib` or its header, with the Lean model):
common/range.h (Range, Grid), common/indexing.h (Indexing), common/zgridparam,
common/mask, common/flag, common/median, statistics/* (priorhelper, pdfcandidateszresult,
deltaz, zprior, pdfz operator), processflow/scopestack, scopestore, resultstore,
parameterstore (decisions), extremum/extremum.cpp, operator/logZPdfResult,
spectrum/axis, spectralaxis, fluxaxis, rebin/*, LSF*, continuum state of spectrum.cpp,
continuum/median and waveletsdf-free estimators, template catalogue and template.cpp
corrections, fluxcorrectioncalzetti, fluxcorrectionmeiksin, lineprofile*,
spectrum/logrebinning.cpp, context.cpp (rebinned inputs), line/airvacuum.cpp,
operator/templatefitting.cpp (one redshift), method/classificationsolve.cpp,
linemodel/elementparam, line/rule*.cpp, line/regulament.cpp, linemodel/rulesmanager.cpp,
linemodel/templatesortho, linemodel/element.cpp (supports, flux model, cross products), linemodel/abstractfitter.cpp (amplitude fit), linemodel/elementlist.cpp (supports, groups, overlaps), linemodel/hybridfitter.cpp (grouping), linemodel/svdfitter.cpp, line/catalog.cpp, line/lineRatioCatalog.cpp, linemodel/lmeltlistvector.cpp, linemodel/obsiterator.h, linemodel/spectrummodel (model, lines removed, residuals), linemodel/linemodelfitting.cpp (merits, constants, signal to noise), linemodel/lineratiomanager.cpp (merits), linemodel/templatesfitstore.cpp, common/polynom.cpp, photometry/*.cpp, operator/templatefittingwithphot.cpp (not the resampling on the bands), line ratio catalogs and fit loop (linemodelfitting.cpp fit, tplratiomanager.cpp, catalogsTplRatio.cpp), operator/linemodel.cpp (grid refinement, first pass loop, velocity search, recomputation, line measurement), operator/linemodelresult.cpp (Init, updateVectors), linemodelpassextremaresult.cpp, candidates and final results of linemodel.cpp, priors and array of linemodelsolve.cpp, line presence of linemodelresult.cpp, the continuum fits of the two passes (`ContFit`: linemodel.cpp `makeTFOperator`, `fitContinuumTemplates`, `PrecomputeContinuumFit`, `evaluateContinuumAmplitude`, continuummanager.cpp `LoadFitContinuum` store part, linemodelsolve.cpp `createRedshiftGrid`), operator/peakdetection.cpp, operator/linedetection.cpp (the Gaussian fit as a parameter; not `LimitGaussianFitStartAndStop`), operator/linematching.cpp, operator/linematchingresult.cpp (not the output), line/rules.cpp, `templatefittinglog.cpp` (FitRangez, FindZRanges, FindTplSpectralIndex, FitAllz), `operator/templatefittinglog.cpp` (CheckRedshifts, template sub-sampling), tplcombination.cpp (all functions except the log messages), pdfz.cpp (Compute, searchMaxPDFcandidates), src/lib/method/templatefittingsolve.cpp, src/lib/method/tplcombinationsolve.cpp, src/lib/operator/templatefittingresult.cpp, lbfgsbfitter.cpp, linematchingsolve.cpp, gaussianfit.cpp, linemeassolve.cpp, objectSolve.cpp, svdlcfitter.cpp, EltDeriv.lean, Model/DirInt.lean (elementlist.cpp 493-518, spectrummodel.cpp 489-550, linemodelfitting.cpp 1223-1240), linemodelsolution.cpp, lineratiomanager.cpp (profiles), outsideLineMaskBuilder.cpp, linemodelextremaresult.cpp (deviations), Strong.lean, TplModel.lean, TplCompute.lean, ContIdx.lean, templatefittingwithphot.cpp, spectrummodel.cpp getLinesAboveSNR, extremaresult.cpp, linemodelextremaresult.cpp:178-233, tplCombinationExtremaResult.cpp, TplMask, processflow/inputcontext.cpp (Init up to the resampling, resetSpectrumSpecific), `method/solve.cpp`, Model/SpcCopy (spectrum copies, spectra of a template fit), Model/LogTable (log.cpp, handler.cpp, mutex.cpp), method/linemodelsolve.cpp (Solve, compute), templatefittingsolve.cpp 62-215 and tplcombinationsolve.cpp 55-150 (compute), line.cpp / catalog.cpp / lineRatioCatalog.cpp (line definition, LineDef.lean), linemodelfitting.cpp (settings), abstractfitter.cpp (makeFitter), lineratiomanager.cpp (makeLineRatioManager, setPassMode), TplCorr, Reest, templatesortho.cpp OrthogonalizeTemplate (`Ortho`), rebin.cpp convert and create, rebin.h reset (`RebinCache`), `ProcessFlow.py`, `ScopeManager.py`, `ResultStoreOutput.py` (errors only), Filter.py, FilterLoader.py, the filtering part of AbstractSpectrumReader.py, the merging part of AbstractSpectrumReader.py, `Parameters.py` (setters and loaders of the line measurement), `_lsf_args`, `lsf.py`, AbstractOutput.py (loading and reading of the results), OutputSpecifications.py, ResultStoreOutput.py (access to the store abstract), PdfHandler.py, Reliability.py (checks before the network), logZPdfResult.cpp (constructor, grids), H5Writer.py (coding of the values not modelled), ParametersConverter.py, jsonschema-v2, linemodel/tplratiomanager.cpp (prior), statistics/pdfcandidatesz.cpp (Gaussian fit), ParametersExtender.py, CalibrationLibrary.py (281-345, 369-392, 497-539), and the files of the later rows above.

Not modelled: file input and output, logging, thread scheduling (the library is
sequential), the numerical optimisers (LBFGS++, GSL multifit) except as parameters, FFT
(fftw), the Python layer other than the files listed, rounding of doubles.

## Findings: claims that are false of the code

Each is stated as a theorem (names ending with `_counterexample`, or listed in the MANIFEST note), except those marked (read).

* Result store: names containing dots collide; the empty-string scope collides (C14-C17).
* Parameter store: `HasTplIgmExtinction` throws MISSING_PARAMETER for the other methods;
  `Get<range>` of a short list is undefined.
* Median of an empty vector is undefined (C13).
* Extremum search: a shelf leaves a stale plateau count and a minimum is reported; a flat low right border is
  reported; a NaN is reported as a peak; the merit cut leaves stale sorted indexes (out of bounds); a maximum of zero peaks
  with separation underflows (C19-C22).
* `deltaz` of a Gaussian PDF is sqrt(2) sigma (C28).
* Integration ranges: kept candidates can overlap across a duplicate; undefined with no candidate (C29).
* A PDF grid of one point gets log PDF 1 and is refused; a one-window second pass is treated as a first pass.
* Prior table: mode 0 clamps to row 24 of 24 (out of bounds for z >= 6); mode 1 accepts z in (-0.25, 0); short files are read past
  their end (C31).
* Fine PDF conversion reads an element removed by `resize` (C32).
* Spectral axis: sortedness cache stale after several operations (C33); inverted log cache condition in `ApplyOffset` (C47);
  sub-sampling ratio 1 ignores the range, ratio 0 never ends (C48); mask overlap without size check; lookup in an empty axis (C36).
* Rebin: targets beyond the end are kept in the mask (C37); variance rebinning with one target and ngp with one source read
  index -1; fine-grid rebin gives zero flux with mask 1 at the end (C50).
* Negative smoothing width (C38); validation and correction skip the last sample and the one at the end of the range (C39, C40).
* Continuum (C43): a manual continuum is not scaled before the first estimation, a reset after it ends in INTERNAL_ERROR; a
  new spectral axis leaves a stale continuum; corrections on a non-raw spectrum are lost; assignments drop photometry.
* Median continuum (C53): 1 to 3 samples undefined; resolution 0 undefined; non positive amplitude ends in INTERNAL_ERROR.
* Templates (C42): a refused dust index is recorded; a refused redshift leaves the old dust in the flux; catalogue (C41):
  unknown name dereferences null; `SetTemplate` on the last template moves it; clearing leaves derived lists.
* Orthogonalisation (C54): `break` for `continue`; other models stale after a first LSF; always redone after one LSF change.
* Dust (C55): negative index unchecked, last wavelength of the curve gets 1, sizes not compared.
* Profiles (C56): derivative of ASYM misses a factor 2; `isValid` tests alpha twice; wrong sign of the mode centring.
* LSF tables unchecked order (C57); IGM (C58): second convolution ignored, zero outside the convolved range; symmetric IGM profile
  (C59): transmission applied twice and factor 1+z missing.
* Log rebinning (C60): spectra and templates ending within half a step of the grid refused; alignment check one-sided;
  context (C62): clamped ranges from the last spectrum, mixed spectra reordered, stale redshift ranges.
* Air to vacuum (C63): one iteration only (missing absolute value).
* Template fit (C65): sums counted twice in the fast IGM processing when the range is in the IGM range; dust off with priors
  reads index -1; IGM fit without dust fit refused above Lyman alpha.
* Classification (C66): one NaN evidence makes all probabilities NaN.
* Amplitudes (C67): limiting gives numbers to lines out of range; zero nominal amplitude gives NaN.
* Rules (C68-C70): both errors zero give NaN amplitudes; the element amplitude is set from a line amplitude; the absorption
  Balmer rules are set for emission; setting the option twice doubles the rules; names matched by substring; flags of the first
  spectrum only (read).
* Line element supports (C71): two supports can share an end sample, which then counts twice in the cross products; a line before
  the range or after the axis counts in range with a coarse sampling; a one sample support inside another one is not merged.
* Velocity derivative (C72): a line merged into the support of another one is missing from the derivative model.
* `GetModelVelfitGroups` removes duplicates from copies of the groups (elementlist.cpp:133); line/rules.cpp
  `isLineInsideRange` mixes `&&` and `||` (read).
- C73: the samples shared by the end of one support and the start of the next one (as left by `prepareSupport`) enter twice in the sums of `computeCrossProducts`, each time with only the lines of that support, while the flux model adds both lines there: for a spectrum equal to the model of amplitude 1 the fitted amplitude is 4/3 (`C73_shared_sample_counterexample`). An element outside of all spectra keeps its previous amplitudes.
- C74: an empty list of element indexes means all the elements for the amplitude offsets.
- C75: the overlap test is relative to the window of the reference line only, so it is not symmetric and the groups depend on the order of the elements; a chain of overlapping elements is split; elements disabled by the caller are fitted when they overlap an enabled one.
- C76: the loop removing duplicates from the velocity groups works on copies: an element with two lines of a tag is listed twice.
- C77: the linear system of the joint fit uses all the visible lines of each element on every sample, the flux model truncates each line to its support: the fitted amplitudes do not minimise the chi-square of the flux model. A negative amplitude found by the second joint fit sends all the elements to separate fits.
- C78: ungrouped lines with the same string identifier, or a group named `single_X`, share one element; a group mixing emission and absorption takes the type of its first line; a line of type `no` is accepted and dropped by the two element load; the type of an empty string reads out of bounds (read). C79: an unknown velocity group lets std::out_of_range through.
- C80: all the copies of the index of spectra share one counter: a loop inside a loop never ends, and after a complete loop the current spectrum cannot be read until a reset.
- C81: a partial refresh loses the flux of the elements that overlap the refreshed ones, and the amplitude offsets; the model of a list of overlapping elements keeps the last one only.
- C82: removing the lines of all types keeps 90 % of a line at its centre (the residual of the continuum is then computed on it); the call leaves the model with the lines of one type only.
- C83: a perfect fit has a NaN residual and is never chosen; a spectrum fitted perfectly is left out of the mean; the residual without continuum compares the flux without continuum with the model with its continuum; in `noContinuum` and `tplFit` the weights ignore the errors of the spectrum.
- C84: the last sample of the range is in the likelihood constant and not in the merit; dtd is cached on the range of the first spectrum only.
- C85: merged supports overlap when the lines are not in order of position, samples then count twice; only the first spectrum is used (read). `getContinuumUnderLines` with the absorption lines subtracted asks for the absorption lines of the emission elements: none is ever subtracted (read).
- C86: the maximum offset is never tried (floor(x+0.5) steps) and profile parameters half a step over their maximum can be; the joint fit with offsets throws INVALID_SPECTRUM_INDEX at its second step, and so does any refit of a Balmer pair, even with one spectrum.
- C87: `GetFitValues` reads out of bounds when a redshift has fewer candidates than another one; asked for a redshift between two of the grid it reads the ten first redshifts for its log, out of bounds for a grid of fewer than ten, before raising. A duplicated redshift of the grid never gets candidates.
- C89: a band of one sample has no defined flux (0/0); an empty band is undefined behaviour; neither is refused.
- C90: when all photometric bands are in the IGM range, the fast processing counts the photometry twice for the IGM curves after the first (same defect as C65).
- C91: the logarithms of the photometric errors enter the likelihood constant with the wrong sign (`cstlog -= a - b`).
- C92: `ComputeSpectrumModel` applies the amplitude to the spectrum only; the photometric values it returns are those of the template with amplitude 1.
- C93: the prior of the lines never enters the comparison of fits (`_meritprior` is never assigned), while the table of a catalog keeps the fit of smallest merit plus prior: the continuum of one fit is then reported with the line amplitudes of another. With the `rules` type and several continua the best continuum is loaded again but the elements keep the amplitudes of the last one.
- C94: restoring the best catalog loses the errors of null amplitudes and changes the other lines of an element with a capped absorption line.
- C96: `GetBestFit` clears the vector of corrected amplitudes and then writes in it by index: undefined behaviour for every successful `tplCorr` fit; an exact catalog (chi2 = 0) is refused.
- C97: `Init` without line ratio catalogs does not clear `StrongHalphaELPresentTplratios`: a result initialised again keeps a table of the old length.
- C98: when the windows of two candidates overlap, redshifts of the first window are not in the refined grid and `getRedshiftIndex` raises INTERNAL_ERROR (candidates merged by `Combine_firstpass_candidates` are only kept 5e-4 apart).
- C100: a NaN continuum amplitude at one redshift hides a null model; an empty grid is reported as a null model.
- C102: the upper limit of the velocity interval is never tested, and an interval shorter than the step gives no test. `ChiSquare` of the candidate is assigned the merit of another redshift (overwritten later by the recomputation) and its solution is overwritten by fits at other redshifts; when no test has a merit the model keeps the last tested velocity.
- C104: with the linear sampling and negative redshifts (stars) the peak filter scales with `1+z` but the window does not: kept candidates can have overlapping windows, and the refined grid then misses redshifts of a window (`getIndex` raises INTERNAL_ERROR).
- C105: `getUniqueCandidates` compares with the first list only: candidates of the second list closer than the threshold to each other are both kept. The threshold (5e-4) is unrelated to the window size, so that the windows of a combined list may overlap (C104 does not apply to it).
- C108: saving the same redshift twice re-fits from the solution stored by the first save; a candidate with a NaN merit cannot be saved (`m != ChiSquare` is true for NaN).
- C110/C112 (`evaluateContinuumAmplitude`): in the second pass with `tplFitAuto` a negative continuum at all redshifts of a window is neither refused nor replaced, and no warning is raised; the `break` of `ComputeSecondPass` ("when set to fromSpectrum by PrecomputeContinuumFit") is dead code (`C112_no_break`).
- C109: a duplicate redshift in the grid given to `PrecomputeContinuumFit` leaves a row of the store empty, and `FindMaxAmplitudeSigma` then reads `m_fitValues[i][0]` out of bounds.
- C115: the flux of the last sample enters no level (exclusive end), and when no neighbour is within half a window of it (a window under twice the last step, or one sample) the median of an empty window is undefined behaviour.
- C117: a peak whose highest sample has index 1 is discarded as a border peak like one of index 0; the redefined borders are computed and never stored; the operator returns a result with empty lists (not null) when all peaks are discarded.
- C118: the enlarged range includes the last sample of the previous peak but excludes the first of the next; with rate 0 the ranges are closed, with a positive rate half open.
- C119: the noise reported by `ComputeFluxes` is always the MAD, even when the ratio was computed with the error of the spectrum.
- C120: one peak can get two statuses (several checks), so that the status list is not aligned with the peaks.
- C121: a peak near two strong lines is tested and added twice; the window is truncated to an integer; the half width of the removed interval is 2.35 times the *ratio* of the line (`GetCut`) instead of its width; an infinite ratio (no noise) is converted to an integer (UB); with the first sample removed the reduced indices are one too high (C122) and a peak at the end makes the whole detection fail with INTERNAL_ERROR.
- C123: with a single catalogue line the other detected lines are not matched; a negative threshold refuses every solution (unsigned comparison).
- C124: `GetSolutionsListOverNumber` with a negative number selects nothing; `GetMeanRedshiftSolutionByIndex` on an empty list is UB for every index (`size()-1` wraps).
- C125: a width under two steps gives an empty list of candidates even when there are solutions; the upper end of each window is left out.
- C126: `m_lambdaRange.GetBegin() + winsize ? m_winsize : 0.` parses as `(begin + winsize) ? ...`: the range test only accepts a wavelength exactly equal to the window size, so that the three rules practically never refuse a solution; rule 1 then also compares all strong lines of the catalogue, not only those in the range.
- C127: the unused function `EstimateMtMFast` computes the recurrence with the template sample one before the right one (`Y[nX-1+k-1]` instead of `Y[nX-1+k]`): `C127_mtm_fast_counterexample`. `EstimateXtY` multiplies the entries after n/2 of the FFTW output buffers, which FFTW does not write; the backward transform does not read them.
- C129: `FindZRanges` makes an empty range when two of the cut redshifts (IGM bin bounds, start of the Lyman alpha absorption) have no redshift of the grid between them; `FitRangez` then reads the first element of an empty list (undefined), for every such input (`C129_two_cuts_fail`). A redshift equal to an IGM bin bound is fitted with the curves of the bin below (`C129_bound_counterexample`), although elsewhere it belongs to the bin above.
- C131: in `FitAllz` the dust and IGM configuration is chosen without the prior; the reported fit can be far from the best one (`C131_choice_ignores_prior_counterexample`). The prior is applied under another condition than in the direct operator (`A_mean > 0` instead of `betaA > 0`), so the two operators give different chi2 for the same prior (`C131_prior_differs_counterexample`).
- C132: redshifts in decreasing order are not refused by `CheckRedshifts`: the ratio is negative and `GetSubSamplingMask` writes out of its bounds (`C132_decreasing_counterexample`).
- C133: when the range of a template does not meet the range found so far, `IntersectWith` fails and leaves the range as it was; the result is not checked, so that templates without a common wavelength are combined over the range of the first (`C133_disjoint_counterexample`).
- C135: the chi2, dust coefficient and IGM index are those of the best configuration, but amplitudes, errors, significances and covariance are overwritten at every configuration: those of the last one are reported (`C135_amplitudes_counterexample`).
- C136: the covariance matrix is not multiplied by the squared normalisation while the amplitude errors are (`C136_covariance`).
- C137: the debug log reads the covariance element (0,1) for any number of templates; with one template the GSL range check calls the error handler, so that a single template always fails (`C137_one_template`). Masks and priors are never used by the fit.
- C138: an empty list of redshifts is not refused; the warning about the overlap reads the first element of an empty list.
- C139: the axis of the model is the observed axis multiplied again by 1+z (`C139_axis_counterexample`).
- C140: `searchMaxPDFcandidates` calls `Find` with the first pass flag when there is one window, also in a second pass with a single parent: no peak is then an error of `Find` instead of an eliminated candidate (same error code in both cases).
- C141: `Solve` of both template solvers puts the components back only at the normal end: after an exception (or a null result in the combination, which then returns `false` silently) the spectra and templates keep the last component. With "all", the dust flag is a local variable set to false for the component without continuum and never set back, so the continuum is fitted without dust.
- C142: the schema of the parameters allows "noContinuum", `templatefittingsolve.cpp:131` expects "nocontinuum".
- C143: -1 is the mark of a constant not yet set; a first constant equal to -1 is not compared with the second.
- C144: `buildExtremaResults` dereferences a null result when no chi2 is below `DBL_MAX` at the redshift of a candidate (for instance infinite merits), and reads past the end for a redshift out of the grid.
- C145: the axes are compared with the first one only, so two of them can differ by twice the tolerance.
- C147: lbfgsbfitter.cpp:370-377, the loop that detects a second type of element increments `nddl` and `param_idx` for *every* element after the first one of the other type, since `lineType` is then `nType_All`: the bounds and the guess have entries that are never set (uninitialised Eigen vectors given to the minimiser).
- C148: lbfgsbfitter.cpp:131-206, the amplitudes are set before `prepareSupport`/`setGlobalOutsideLambdaRangeFromSpectra`, i.e. with the lines in range at the previous evaluation: a line that comes back in the range has a NaN amplitude and is missing from the model, the cost of a point depends on the previous one. The normalisation is 1/0 when the flux of the samples is null (417-422).
- C150: lbfgsbfitter.cpp:439-446, the limit of the absorption (a relative depth) bounds the amplitude multiplied by `normFactor = 1/max|flux|`: allowed depths are unreachable when the flux is below 1, and depths beyond the limit are fitted then cut when it is above 1.
- C151: lbfgsbfitter.cpp:684-687, `break` instead of `continue` at the first element out of the range: the following elements keep a NaN uncertainty.
- lbfgsbfitter.cpp:585-590: after an exception of LBFGS++ the stored point is the guess, which is not checked against the bounds.
- C152: linematchingsolve.cpp:240-349, every path of the update continues the loop before `iCmpt++`: the limit of 100 tries and its warning are never reached, and the dynamic mode runs for ever when no match is found. The cut may become negative in the sweep (line 318). `FilterWithRules` uses the configured window size, not the one of the detection (line 266).
- C154: gaussianfit.cpp:193, `status` is never assigned: `Compute` returns a success even if GSL did not converge. Lines 136-140: `std` is not a standard deviation (the accumulator is subtracted from the fluxes). With as many samples as parameters the errors are infinite or NaN (lines 222-223).
- C156: after the joint fit of lines and continuum (`svdlcfitter.cpp`), the error of the amplitude of the continuum is 1, whatever the fit: the fitted errors (`errorsfitted`) are not given to the
  continuum manager (`C156_continuum_error`). An absorption line is fitted relative to the template of amplitude 1 and applied to the fitted continuum, so that the model left is not the fitted one
  (`C156_absorption_counterexample`); a negative amplitude is set and the line is then left out of the model (`C156_negative_counterexample`). A flux which is null over the
  range divides by zero: there is no `DBL_MIN` as in `svdfitter.cpp`.
- C157: `GetModelDerivContinuumAmpAtLambda` and `GetModelDerivZAtLambda` do not skip lines with a negative amplitude, which `getModelAtLambda` skips.
- C158: `GetModelDerivZAtLambda` ignores that the width depends on the redshift through the velocity (and the LSF): for a velocity-driven symmetric line one width away from its centre it gives half of the derivative. (Its only caller, `ComputeLeastSquareAndGrad`, is not called.)
- C157: with a Lorentzian profile `GetLineProfileDerivVel` throws even for an instrument-driven width, whose derivative is null.
- **C159** (spectrummodel.cpp:529-533, linemodelfitting.cpp:872-876): "subtract absorption lines model" is asked for emission lines only, with the list of the elements of these emission lines: `getModel` then keeps no absorption line, and the result is the continuum. Proved: the flag has no effect on a line in range.
- **C160** (linemodelfitting.cpp:916-917): `FluxDirectIntegrationUncertainty = |flux|/snr` is NaN (0/0) for a null flux although the uncertainty is known; (1227-1233) the spectra where the line is out of range are not skipped, contrary to `GetMeanContinuumUnderLine`: with several observations and an LSF of limited range, the whole integration throws.
- C161: `NLinesAboveSnrCut` of the solution is always 0 (the call of `getLinesAboveSNR` is commented out). `ElementId` is set even for lines out of range.
- C162: with amplitude offsets, a solution of the brief extraction (`opt_level` 0) holds NaN polynomials, and loading it gives NaN polynomials to the elements (example in LmSolLoad.lean). `LoadModelSolution` (linemodelfitting.cpp:778-788) prepares the supports with the range flags left by the last fitted redshift.
- C163: the test of `setLyaProfile` is on the profile in use, so a template ratio catalogue that gives Lyman alpha a symmetric profile (accepted by `setAsymProfileAndParams`) makes it stay symmetric for all later catalogues (`C163_sym_sticks`). The parameters of a free asymmetric profile of a catalogue are never used: they are reset to (2,0,0) before the fit. Only the first line of the first element with an IGM line is treated as Lyman alpha. `setSymIgmProfile` ignores its list of lines.
- C164: a candidate whose lines cover all the samples that count (a narrow spectrum, large velocities) ends the whole line model in `STDESTIMATION_FAILED` (linemodelextremaresult.cpp:171-175). Only the first spectrum of a multi-observation is looked at. The last sample of the range is never counted.
- C165: with several spectra the scale correction counts an element once for each spectrum where it is in range although the norm is shared (`C165_scale_all`). In `getStrongLinesPresence` filter 2 means "not emission" as the names say. A NaN uncertainty passes the test `noise <= 0` and is stopped by the comparison only.
- C166: the model spectrum of a candidate is null outside of the range of wavelengths, and in between, the samples beyond the end of the range that are still in the last template interval have the template without dust nor IGM (`C166_beyond_range`): a step in the reported model. When the template and the spectrum do not intersect inside of the range, the range of the fit is (0,0) and the call ends in INTERNAL_ERROR of the resampling rather than in the overlap error.
- C167: the overlap warning of the template fit can never be logged: a redshift whose overlap is below the threshold has already made the whole call fail (`C167_compute_partial`: every overlap of a returned result is at least the threshold). An empty list of redshifts is read at index 0.
- C168: a null error anywhere in the spectrum makes the mean flux of every range NaN, since masked samples are multiplied by zero and not skipped (`C168_null_error`). The linear regression in a range also uses the first sample beyond its end, unlike the mean. The slope and the constant are compared without being initialised when the range is not in the spectrum (harmless, the comparison is followed by a test of the return value). The colour is NaN when the mean flux of the first range is not positive.
- C169: the check `overlapFraction < 1` of `RebinTemplateOnPhotBand` (templatefittingwithphot.cpp:135-138, `OVERLAPFRACTION_NOTACCEPTABLE`) can never fire with the linear resampling: a template that does not cover the band makes `Rebin` throw `INTERNAL_ERROR` first (proved, `C169_bands`).
- C170: an OII or CIII doublet is reported also when only its first line exceeds the ratio, even if the doublet integrated as a whole does not; and the absorption model is subtracted for single lines but never for doublets.
- C171: HasCandidateDataset answers true for a dataset of the class of the result even if there is no candidate or its object was never set (photometry, model of a first pass result); GetCandidateResultType then dereferences a null pointer or reads past the end of a vector (C171_announced_ub). On a result without candidates HasCandidateDataset throws instead of answering false.
- C172: the masked copy of a template does not set `m_Igm_kend`; on the copy every IGM index is accepted and ignored, and the absorption already applied cannot be removed, until `InitIsmIgmConfig` is called. When the kept samples lie on both sides of the extinction range and none in it, the copy throws CRANGE_NO_INTERSECTION although the code means to handle the fully masked range (it only catches CRANGE_VECTBORDERS_OUTSIDERANGE).
- C174: `Init` convolves the IGM curves again for every spectrum when the line spread function comes with the spectrum, but `convolveByLSF` appends to the curves already held and the corrections read the first ones: every later spectrum is corrected with the curves of the first spectrum of the run, and the object grows without bound. The IGM object is dereferenced even when no model uses the IGM.
- C175: `SetIsmIgmCorrection` looks only at the first template of a category: a template added after the first one got its extinction object never gets it.
- C173: `Init` called twice without a reset iterates over vectors of different sizes.
- C176: the guard that saves the warnings calls a function that throws when the name is taken, from a destructor: running the
  same solver twice in the same scope without resetting the result store ends the program (`std::terminate`).
- C177: `InitRanges` is called before the guard is built: the warnings it raises before it throws are neither saved nor reset, and
  are saved as warnings of the next solver that is run.
- C178: `CSpectrum::operator=` (both overloads, spectrum.cpp:162-199) does not assign `m_photData` and `m_obsId`; the copy constructors do. `extract` forgets the selected component, the observation, the photometric data and the resampling method.
- C179: with `fftProcessing` the selected component (`spectrum.component`) is applied to `Context.getSpectra()` only, not to the resampled spectra the operator fits: the raw flux is fitted (and stored under the name of the other component). The resampled spectra have no observation identifier, so the models of several observations overwrite each other.
- C180: `CLog::AddHandler` (log.cpp:128-136) silently drops a ninth handler; it is not registered when a position becomes free.
- C181: `AddHandler`, `RemoveHandler` and `SetLevelMask` do not take the mutex `logEntry` holds: a handler destroyed while another thread logs is called after its destruction. `logEntry` locks without a guard object: if a handler throws the mutex is never released and every later message blocks its thread for ever. (`CFlagWarning` and `AmzException` log in their constructors, so this is a deadlock on any warning.)
- C182: `Solve` prepares `fpb_opt_continuumcomponent = "fromSpectrum"` for its second first pass but never uses it: `Init` and `ComputeFirstPass` read `continuumComponent` again, and the number of candidates is `maxCandidate`, not `extremaCountB`. The pass repeats the first one and adds nothing, at the cost of a whole first pass.
- C184: with `skipSecondPass` the final PDF operator is made with one peak per window and there is a single window, the whole grid: one candidate is returned whatever `extremaCount`; a peak at the border of the grid is not accepted either (it is in the first pass).
- C185: `CTemplateFittingSolve::compute` sets `m_logsampling = true` on the shared catalogue in FFT mode and resets it only after the PDF and candidates are stored. After an exception in between (for instance no PDF peak) the next template combination or line model solver of the same spectrum reads the log-sampled templates of its category, or finds none and fails with BAD_TEMPLATECATALOG. `resetCatalogState()` exists but is never called. In `CTplCombinationSolve::buildExtremaResults` the flag is cleared "to make sure tpl is non-rebinned" after the list of templates was read, so it has no effect on the models.
- C188: `AddLineFromParams` (catalog.cpp:120-147) ignores the asymmetry parameters it is given for the profiles ASYM and ASYMFIT (used for ASYMFIXED only); it reads only the first letter of the type and of the force, and the first character of an empty string (undefined); `ASYMFIXED` is looked for as a substring of the profile name.
- C189: after `convertLineProfiles2SYMIGM` the Lyman alpha line has no asymmetric profile, so `setAsymProfileAndParams` of a line ratio catalogue does nothing: the asymmetry parameters of the ratio catalogue are silently lost, and a name that is no profile is accepted.
- C191: `fitVelocity` and the svdlc stage put back the fitter they had moved away but neither the method name nor the models' amplitude offset flag, both changed by `SetFittingMethod` (whose option arguments default to false). With `ampOffsetFit` and `velocityFit` (or svdlc), every fit of the fine grids and every reported candidate is then fitted with offsets that the model spectrum leaves out (`C191_velocity_loses_offsets`, `C191_lc_loses_offsets`); with `fittingMethod = random` and `velocityFit` the exemption of `buildExtremaResults` no longer applies and the run ends with INTERNAL_ERROR (`C191_random_refused`).
- C96 (run): with the line ratio `tplCorr` no corrected amplitude is ever produced: `computeMerit` (tplcorrmanager.cpp:55-102) has undefined behaviour as soon as one line has an element and is in range, since `GetBestFit` leaves an empty vector or writes in it.
- C193: with `continuumReestimation = onlyextrema` (8 iterations) the lines are removed 2, 1.67, 1.34 and 1.01 times in the first four iterations (hybridfitter.cpp:81-85), so an exact model is not a fixed point; only the continuum of the first observation is ever re-estimated.
- C194: with `continuumComponent = noContinuum` and re-estimation, `prepareAndLoadContinuum` (linemodelfitting.cpp:314-316) returns without resetting the continuum that `EstimateSpectrumContinuum` wrote: the fit at a redshift starts from the continuum estimated at the previous one (`C194_leak_counterexample`). The parameter checker only warns about this combination.
- C195: the continuum is loaded once per template, not once per line ratio: with re-estimation the second ratio of a `tplRatio` run is fitted on the continuum re-estimated with the lines of the first (`C195_order_counterexample`).
- C196: orthogonalisation runs with the continuum method `zero`, so absorption elements are multiplied by a null continuum and never change the template (`C196_absorption`); a template whose projection on an emission element is negative keeps it, because the amplitude is clipped at 0 (`C196_negative_counterexample`).
- C197: the fine grid of a spectrum follows `convert` to another interpolation but only the fine grid class clears it (rebin.h:70), and `SetSpectralAxis`, `InvertFlux`, `correctSpectrum`, `InitSpectrumContinuum` and the continuum setters do not clear it at all: a later resampling with `preComputedFineGrid` uses the old flux (`C197_stale_counterexamples`).
- C198: `stage_enabled("linemeas_catalog_load")` (Parameters.py:178-180) is true exactly when there is no redshift solver, but the stage is run only after a redshift solver (ProcessFlow.py:170-172); a reliability stage asked for without a network in the calibration library, or without a redshift solver, and a line measurement with both (or neither of) a redshift solver and a catalogue, are neither run nor reported; `check_linemeas_validity` rejects only `lineModelSolve`. `all_redshift_solver_failed` counts a model without redshift solver as one that did not fail.
- C199: the instruction `~^` is in the schema and has a comparator but not in `allowed_instructions` (Filter.py:56), so it is refused; `ParametersChecker.py:129-140` authorises filters on "Wave", "Flux" and "Err" while the columns are "waves", "fluxes" and "errors", so that a filter on a mandatory column is refused either by the check or by the filter; the example documented in the schema (`^` 8, "flag 8 absent") keeps a pixel with flag 8 together with flag 9's lower bit; `_check_wavelengths` (AbstractSpectrumReader.py:271) tests the emptiness of the spectrum before filtering with the message "Filtered spectrum is empty".
- Read in the Python layer, not modelled: `Parameters.check_linemeas_validity` raises `ErrorCode.INCOHERENT_CONFIG_OPTION`, which is not a code (errorcodes.i:60), so an AttributeError replaces the intended error; `_check_GaussianNISPSIM_lsf_type` compares the LSF type with "GaussianNISPSIM201707", which is not one of the types, so its parameter is never checked; `Parameters.get_lambda_range_min` uses `10 ^ 9` (exclusive or, 3).
- C200: merging observations moves the k-th pixel of a repeated wavelength by k·1e-10 and refuses spectra in which the moved pixels reach the next wavelength (`C200_close_counterexample`, two different errors); the coverage warning of `_check_wavelengths` compares each observation, unfiltered and unmerged, with the range (`C200_range_counterexample`: complementary observations are both reported); an absent `multiObsMethod` (accepted by `_add_cspectra`) makes `get_lambda_range` index a list by a name.
- C201: the parameters are shared by all the spectra of a session and `json.dumps` writes a NaN velocity (empty cell of the line measurement catalogue, NaN in a result) as `NaN`, refused by the JSON parser of the library: as the parameters keep it, `LoadParameterStore` fails for every later spectrum whose line spread function is loaded first (AbstractSpectrumReader.py:440), until a catalogue row replaces it (`C201_nan_counterexample`). `load_linemeas_parameters_from_result_store` sets the redshift before reading the velocities, so that a failure leaves a mixed set in the parameters; it is never used by a measurement (`C201_own`).
- C202: with `fromSpectrumData` only the first observation with a line spread function counts (`C202_lsf_counterexample`).
- C203: observation identifiers end the names of datasets without separator, so an observation may make two datasets collide (e.g. `_parameters` gives `model_parameters`); a second method that stores the same dataset erases what the first stored in it.
- C204: `get_method` (AbstractOutput.py:237-243) knows only the dataset `linemeas`: `linemeas_parameters` and `linemeas_model` are asked to the redshift solver when the results are not loaded; the warning flags of a method and the datasets by observation cannot be read at all before the loading (no row with this name); the extended results are readable before, not after.
- AbstractOutput.py:602 (`get_attributes`): the value is asked without the PDF builder, the LogZPdf attributes always fail there (debug log only). The row `linemeas_line_mask` names no dataset of the store: it is never loaded.
- C206: `get_pdf_attribute` (AbstractOutput.py:194-220) never passes `first_pass` to the builder: a `Firstpass…` attribute asked by its short name gives the final PDF.
- C207: the checks of Reliability.py:86-100 are one-sided (no absolute value): a PDF with a coarser step than the network's, or a linear grid, is accepted when the number of points and the end agree; the beginning is not checked.
- C208: a candidate dataset whose first attribute is an empty array is dropped with its other attributes (H5Writer.py:111-114); the number of candidates is that of the first list of the results (AbstractOutput.py:326-332), so an empty first list hides the candidates of the others, and a longer one fails.
- C209: a failed writing leaves the group of the spectrum, with the models already written: the spectrum can never be written again in this file.
- **C210** The version-2 schemas refuse or misspell what the readers ask: `airvacuumMethod` (read: `airVacuumMethod`), `linemeasDzHalf`/`linemeasRedshiftStep` (read: `lineMeas…`), `lineMeasSolver` without `method`, `gaussianVariablewidthFileName` (read and required by the check: `gaussianVariableWidthFileName`), `catalogDirpath` (read: `catalogDirPath`), `swicthFixedToFit` in the properties but `switchFixedToFit` in the required names (unsatisfiable), `"type": "bool"` for `fftProcessing` of template fitting (no such type: the validation fails), `balmerSingle` (the rule is named `balmersingle`); also `haPrior`, `euclidNHaemittersStrength` (read: `hAlphaPrior`, `nOfZPriorStrength`; the object is open, so both spellings can be given).
- **C211** Version-1 values are renamed like keys: a template directory, file or spectrum model whose name is an old parameter name is silently renamed; `firstpass` and `firstPass` in one object collapse to one.
- **C212** A redshift method that is not one of the three (checks off) is dropped without error.
- C214: `computelogLinePriorMerit` skips the lines with `amp <= 0`, which a NaN is not (`updateTplratioResults` tests `isnan`). An element inside the range that could not be fitted (`fitAmplitude` leaves NaN when its profile is null, e.g. all its nominal amplitudes are zero in the catalog) makes the prior a NaN as soon as the prior has a width for the amplitudes; the comparison of `computeMerit` is then false and the results of the catalog are never recorded, although `fit` can still choose this catalog (it compares merits only, C93) and restore the entry left by an earlier fit.
- C215: `ParametersExtender` overwrites values of the user: its conditions are those of need, not of absence. `continuumReestimation` becomes `"no"` unless the fitting method is `hybrid`, `useLogLambdaSampling` becomes false unless the templates are fitted by FFT, the root `continuumRemoval` becomes the default when only the line measurement uses the continuum of the spectrum, and the kernels are replaced by -1 and true when the method is not `irregularSamplingMedian`. The value `"no"` the extension writes would itself ask for a removal (the condition accepts `"never"` only) if the extended parameters were extended again.
- C217: a band asked twice in `photometryBand` is refused with an empty list of unknown bands in the message.
- C218: in `get_lines_ids` the variable `lines` is not reset between attributes: an attribute of a spectrum model without line catalog receives an identifier of the catalog of an attribute before (or an exception when the line is not there), and none when it comes first. The identifiers are by name of line only: two models with a line of the same name receive one identifier, that of the last one. In `load_reliability_model` (not modelled) the major versions of keras are compared as strings.
