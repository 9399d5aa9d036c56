{"id": "C01", "title": "Range intersection is set intersection", "statement": "For two ranges with begin<=end, HasIntersection/Intersect/IntersectWith report true exactly when some value lies in both, and then the stored result contains exactly the values common to both; when they report false the output range is left unchanged.", "quantifier": "all pairs of ranges over any totally ordered value type (Int32, NaN-free Float64), all values", "why_tests_cant": "ranges over every pair of bounds and every value; includes touching, nested, degenerate ranges and in-place aliasing", "anchors": ["RedshiftLibrary/RedshiftLibrary/common/range.h: CRange::HasIntersection, Intersect, IntersectWith"]}
{"id": "C02", "title": "Joining ranges keeps the covered set and yields disjoint sorted ranges", "statement": "joinIntersections on a non-empty list of ranges returns ranges covering exactly the same values, in increasing order, pairwise disjoint with a strict gap between neighbours; on an empty list it throws EMPTY_LIST. getUnion/unionWith of two intersecting ranges covers exactly the union.", "quantifier": "all finite lists of ranges with begin<=end, all values", "why_tests_cant": "quantifies over lists of any length in any order with any overlap pattern", "anchors": ["RedshiftLibrary/RedshiftLibrary/common/range.h: CRange::joinIntersections, getUnion, unionWith, operator<"]}
{"id": "C03", "title": "Closed interval indices select exactly the samples in the range", "statement": "On a sorted vector getClosedIntervalIndices either throws (empty vector, or no sample in the range) or returns i_min<=i_max such that a sample's index is in [i_min,i_max] iff its value is in [begin,end]; it never reads outside the vector.", "quantifier": "all sorted vectors and all ranges", "why_tests_cant": "all vector lengths, duplicate values and boundary coincidences", "anchors": ["RedshiftLibrary/RedshiftLibrary/common/range.h: CRange::getClosedIntervalIndices"]}
{"id": "C04", "title": "Enclosing interval indices bracket the range tightly", "statement": "On a sorted vector covering the range, getEnclosingIntervalIndices (both overloads) returns indices i_min, i_max in bounds with v[i_min]<=begin and v[i_max]>=end, the tightest such pair; otherwise it throws the documented error; it never reads outside the vector.", "quantifier": "all sorted vectors, all ranges, all inner values", "why_tests_cant": "all lengths and boundary coincidences, incl. the -1 iterator step", "anchors": ["RedshiftLibrary/RedshiftLibrary/common/range.h: CRange::getEnclosingIntervalIndices"]}
{"id": "C05", "title": "Linear grids stay in the range, are regular and maximal", "statement": "SpreadOver (forward/backward) with a positive step on a non-empty range gives a strictly increasing grid with constant step starting at begin (resp. ending at end), all points inside the range and no further point could be added; SpreadOverEpsilon never leaves the original range.", "quantifier": "all ranges and positive steps (exact arithmetic)", "why_tests_cant": "every range length/step ratio, including exact multiples", "anchors": ["RedshiftLibrary/RedshiftLibrary/common/range.h: CRange::SpreadOver, SpreadOver_backward, SpreadOverEpsilon"]}
{"id": "C06", "title": "Logarithmic grids are geometric, in range and maximal", "statement": "SpreadOverLog with positive step and begin+offset>0 gives strictly increasing points whose (value+offset) ratio is exp(delta), inside the range, starting at begin (forward) or ending at end (backward), and one more point would leave the range; mixed sign bounds throw INTERNAL_ERROR.", "quantifier": "all ranges, offsets, positive steps (real arithmetic)", "why_tests_cant": "all real bounds and steps", "anchors": ["RedshiftLibrary/RedshiftLibrary/common/range.h: CRange::SpreadOverLog, SpreadOverLog_backward, SpreadOverLogZplusOne"]}
{"id": "C07", "title": "Centred windows contain their centre and stay in the range", "statement": "spanCenteredWindow on a range containing the centre returns a sorted grid inside the range that contains the centre exactly once, linear or logarithmic.", "quantifier": "all ranges, centres inside, positive steps", "why_tests_cant": "all positions of the centre incl. both borders", "anchors": ["RedshiftLibrary/RedshiftLibrary/common/range.h: CRange::spanCenteredWindow", "RedshiftLibrary/src/lib/common/zgridparam.cpp: CZGridParam::getZGrid"]}
{"id": "C08", "title": "Index lookups return the exact, the closest lower, or the closest index", "statement": "On a sorted non-empty vector getClosestLowerIndex returns the last index whose value is <= the searched one (or reports not found iff all values are greater); getCloserIndex returns an index minimising the distance; getIndex returns an index holding exactly the value, or throws.", "quantifier": "all sorted vectors, all searched values", "why_tests_cant": "all lengths, ties and out of range values", "anchors": ["RedshiftLibrary/RedshiftLibrary/common/indexing.h: CIndexing"]}
{"id": "C09", "title": "Redshift grid refinement keeps a sorted grid containing the refined subgrid", "statement": "Inserting a second-pass subgrid in the redshift grid (insertWithDuplicates/insertSubgrid) keeps the grid strictly sorted, keeps all first-pass points outside the subgrid span, contains all points of the (truncated) subgrid and keeps first and last redshift.", "quantifier": "all sorted grids and sorted subgrids overlapping it", "why_tests_cant": "all relative positions of the subgrid", "anchors": ["RedshiftLibrary/src/lib/common/zgridparam.cpp: CZGridListParams::insertSubgrid", "RedshiftLibrary/RedshiftLibrary/common/vectorOperations.h: insertWithDuplicates"]}
{"id": "C10", "title": "Mask overlap fraction", "statement": "For equal sized masks IntersectAndComputeOverlapFraction equals (#samples kept by both)/(#samples kept by the first), hence lies in [0,1] for 0/1 masks; &= and IntersectWith keep exactly the samples kept by both; sizes that differ are refused without change.", "quantifier": "all masks of any length", "why_tests_cant": "all lengths and bit patterns", "anchors": ["RedshiftLibrary/src/lib/common/mask.cpp: CMask", "RedshiftLibrary/RedshiftLibrary/common/mask.h: CMask"]}
{"id": "C11", "title": "Warnings accumulate and are never lost before reset", "statement": "After any sequence of warnings and resets, the flag bitmask has bit i set iff a warning with code i was raised since the last reset, and the message list holds exactly those warnings in order.", "quantifier": "all sequences of warning()/resetFlag() calls", "why_tests_cant": "histories of any length", "anchors": ["RedshiftLibrary/src/lib/common/flag.cpp: CFlagWarning", "RedshiftLibrary/RedshiftLibrary/common/flag.h: CFlagWarning"]}
{"id": "C12", "title": "The median of a small odd window is its middle order statistic", "statement": "CMedian::Find on 3, 5, 7 or 9 values returns the middle value of the sorted input.", "quantifier": "all inputs of these sizes over any total order", "why_tests_cant": "all value orderings incl. ties", "anchors": ["RedshiftLibrary/RedshiftLibrary/common/median.hpp: CMedian::Opt_Find3..9"]}
{"id": "C13", "title": "The median for other sizes is an order statistic", "statement": "CMedian::Find on n<=1000 values returns the middle value (odd) or the mean of both middle values (even); on n>1000 the selection algorithm terminates, never reads out of bounds and returns the lower-middle order statistic.", "quantifier": "all inputs of any size", "why_tests_cant": "unbounded sizes, loop termination", "anchors": ["RedshiftLibrary/RedshiftLibrary/common/median.hpp: CMedian::BeersFind, FastFind, Find"]}
{"id": "C14", "title": "Scope stack structure invariant", "statement": "After any sequence of successful or failing push/pop operations, every recorded scope type level is inside the stack, two types never share a level, a METHOD scope lies directly above its STAGE, a STAGE is never opened inside a METHOD nor a SPECTRUMMODEL inside a STAGE, and a failing push leaves the stack unchanged.", "quantifier": "all operation histories", "why_tests_cant": "histories of any length and interleaving", "anchors": ["RedshiftLibrary/src/lib/processflow/scopestack.cpp: CScopeStack", "RedshiftLibrary/RedshiftLibrary/processflow/scopestack.h: CScopeStack"]}
{"id": "C15", "title": "Scoped guards restore the scope stack", "statement": "Whatever a block does inside nested CAutoScope guards, including leaving by an exception thrown at any point or by a failing guard construction, the scope stack (names and type levels) after the block is what it was before.", "quantifier": "all nested guard programs, all exception points", "why_tests_cant": "all nesting shapes and all crash points", "anchors": ["RedshiftLibrary/src/lib/processflow/autoscope.cpp: CAutoScope"]}
{"id": "C16", "title": "Scoped names address exactly the current scope", "statement": "GetScopedName(n) is the dotted join of the scopes and n; truncated names use exactly the first depth scopes and throw when the stack is shallower; a name written in a scope reads back in the same scope and, when no component contains a dot, from no other scope.", "quantifier": "all stacks of names, all depths", "why_tests_cant": "all stack contents", "anchors": ["RedshiftLibrary/src/lib/processflow/scopestore.cpp: CScopeStore"]}
{"id": "C17", "title": "The result store is write-once and isolates names", "statement": "StoreResult succeeds iff the (path,name) key was never stored since the last reset, otherwise throws and leaves earlier results untouched; Get returns the object stored; per-template results of one template are invisible under another; getters of unknown names throw UNKNOWN_ATTRIBUTE.", "quantifier": "all histories of store/get/reset", "why_tests_cant": "histories of any length", "anchors": ["RedshiftLibrary/src/lib/processflow/resultstore.cpp: COperatorResultStore"]}
{"id": "C18", "title": "Parameter driven decisions", "statement": "The need for extinction, FFT processing, log-rebinning, template orthogonalisation and the FFT redshift step follow from the enabled methods of the spectrum models exactly as documented; the FFT step is the smallest of the steps of the objects that need log-rebinning.", "quantifier": "all parameter trees", "why_tests_cant": "all parameter combinations, any number of spectrum models", "anchors": ["RedshiftLibrary/src/lib/processflow/parameterstore.cpp: CParameterStore"]}
{"id": "C19", "title": "Reported peaks are local extrema", "statement": "Every abscissa reported by CExtremum::Find belongs to the input grid and the search range, its value is the input merit value, and it is a local maximum (a border one only if allowed).", "quantifier": "all input curves", "why_tests_cant": "all shapes incl. planks of equal values", "anchors": ["RedshiftLibrary/src/lib/extremum/extremum.cpp: CExtremum::FindAllPeaks, Find"]}
{"id": "C20", "title": "Peak separation", "statement": "After filtering with an active separation, every two reported peaks are at least the required distance apart, and each dropped peak is closer than that to a kept peak at least as high.", "quantifier": "all lists of peaks", "why_tests_cant": "all list lengths and orderings", "anchors": ["RedshiftLibrary/src/lib/extremum/extremum.cpp: CExtremum::FilterOutNeighboringPeaksAndTruncate, assertPeakSeparation"]}
{"id": "C21", "title": "Peak truncation keeps the highest", "statement": "With more peaks than the maximal count, Truncate keeps exactly that many peaks and each kept peak is at least as high as each dropped one.", "quantifier": "all peak lists and counts", "why_tests_cant": "all lengths and ties", "anchors": ["RedshiftLibrary/src/lib/extremum/extremum.cpp: CExtremum::Truncate"]}
{"id": "C22", "title": "Peak search is memory safe", "statement": "CExtremum::Find either returns or throws a library error, it never indexes outside its vectors.", "quantifier": "all curves and all settings (merit cut, count, separation)", "why_tests_cant": "settings combinations x inputs", "anchors": ["RedshiftLibrary/src/lib/extremum/extremum.cpp: CExtremum::Find, Cut_Threshold"]}
{"id": "C23", "title": "The log-sum-exp integration equals the log of the trapezoid integral", "statement": "logSumExpTrick(valproba, z) equals log of the trapezoid integral of exp(valproba) over z, for every strictly increasing grid; every exponential times its quadrature weight is at most 1, and the sum whose log is taken is between 1 and the number of points.", "quantifier": "all grids (>=2 points) and all values", "why_tests_cant": "all real inputs", "anchors": ["RedshiftLibrary/src/lib/operator/pdfz.cpp: COperatorPdfz::logSumExpTrick"]}
{"id": "C24", "title": "The redshift PDF integrates to one", "statement": "The log-PDF built from any finite chi2 array and prior on a strictly increasing grid with at least two points integrates to one by the trapezoid rule, and so passes the normalisation check.", "quantifier": "all grids, chi2 arrays, priors", "why_tests_cant": "all real inputs", "anchors": ["RedshiftLibrary/src/lib/operator/pdfz.cpp: COperatorPdfz::ComputePdf"]}
{"id": "C25", "title": "The PDF does not depend on additive constants", "statement": "Adding one constant to all chi2 values, to all log prior values or to the log-likelihood constant leaves the log-PDF unchanged, and a lower chi2 with the same prior gives a larger PDF value.", "quantifier": "all inputs and constants", "why_tests_cant": "all real inputs", "anchors": ["RedshiftLibrary/src/lib/operator/pdfz.cpp: COperatorPdfz::ComputePdf"]}
{"id": "C26", "title": "Marginalisation over templates is the evidence weighted mixture", "statement": "The marginalised PDF is the sum of the template PDFs weighted by their share of the evidence, so it does not depend on the order of the templates and is normalised up to the tiny seed value used for empty sums.", "quantifier": "all families of normalised PDFs and evidences", "why_tests_cant": "any number of templates", "anchors": ["RedshiftLibrary/src/lib/operator/pdfz.cpp: COperatorPdfz::Marginalize"]}
{"id": "C27", "title": "Log priors are normalised", "statement": "Every log prior returned by the prior builder sums (trapezoid or sum of exponentials as coded) to one after normalisation; presence and SNR priors take exactly two values and never penalise a redshift that satisfies the criterion; combining priors adds logs and refuses different sizes.", "quantifier": "all grids and flag vectors", "why_tests_cant": "all inputs", "anchors": ["RedshiftLibrary/src/lib/statistics/zprior.cpp: CZPrior"]}
{"id": "C28", "title": "Redshift uncertainty from a parabola", "statement": "For a log-probability that is exactly a parabola c-(z-z0)^2/d^2 on the samples near the peak the uncertainty estimate is d, for every sampling (so sqrt(2) s for a Gaussian of standard deviation s); whatever the values, a redshift of the grid gets a positive finite uncertainty (the least squares one over 5 or 2 samples on both sides, or the default 0.001), never an error or NaN; a redshift off the grid is an error.", "quantifier": "all grids, all values", "why_tests_cant": "all real inputs", "anchors": ["RedshiftLibrary/src/lib/statistics/deltaz.cpp: CDeltaz"]}
{"id": "C29", "title": "Candidate integration ranges are disjoint and contain their candidate", "statement": "After SetIntegrationRanges every non-duplicate candidate has a range inside the PDF range containing its redshift and the ranges of non-duplicates do not overlap in their interior; or an error is thrown.", "quantifier": "all candidate sets", "why_tests_cant": "any number of overlapping candidates", "anchors": ["RedshiftLibrary/src/lib/statistics/pdfcandidatesz.cpp: CPdfCandidatesZ::SetIntegrationRanges"]}
{"id": "C30", "title": "Candidates are ranked by integrated probability", "statement": "The final list is ordered by decreasing integrated probability (ties keep the order of the identifiers), is a permutation of the input before truncation, ranks are 0..n-1 in order, and truncation drops only candidates not better than any kept.", "quantifier": "all candidate lists", "why_tests_cant": "all lengths and ties", "anchors": ["RedshiftLibrary/src/lib/statistics/pdfcandidatesz.cpp: SortByValSumProbaInt", "RedshiftLibrary/src/lib/operator/pdfz.cpp: COperatorPdfz::Compute"]}
{"id": "C31", "title": "Prior table lookups stay in the table", "statement": "Looking up the template prior for any redshift reads inside the prior table: outside-range redshifts are clamped or rejected according to the mode.", "quantifier": "all redshifts", "why_tests_cant": "all real redshifts incl. exact bin edges", "anchors": ["RedshiftLibrary/src/lib/statistics/priorhelper.cpp: CPriorHelper::getRedshiftIndex, GetTplPriorData"]}
{"id": "C32", "title": "PDF regularisation and interpolation", "statement": "Interpolating a PDF on a grid returns the PDF value at original grid points, stays between neighbouring values elsewhere and never reads outside; conversion to a regular grid is memory safe.", "quantifier": "all grids", "why_tests_cant": "all grids and targets", "anchors": ["RedshiftLibrary/src/lib/operator/logZPdfResult.cpp: CLogZPdfResult::interpolateOnGrid, convertToRegular"]}
{"id": "C33", "title": "The cached sortedness of a spectral axis is right", "statement": "Whatever operations are applied to a spectral axis, isSorted() tells whether its samples are strictly increasing.", "quantifier": "all operation histories", "why_tests_cant": "histories of any length", "anchors": ["RedshiftLibrary/src/lib/spectrum/spectralaxis.cpp: CSpectrumSpectralAxis::isSorted, operator*=, MaskAxis"]}
{"id": "C34", "title": "Masking an axis keeps exactly the selected samples in order", "statement": "maskVector/MaskAxis returns the samples whose mask is 1 in their original order; flux, error and wavelengths masked by the same mask stay aligned; a mask of another size is refused.", "quantifier": "all vectors and masks", "why_tests_cant": "all lengths and patterns", "anchors": ["RedshiftLibrary/src/lib/spectrum/axis.cpp: CSpectrumAxis::maskVector", "RedshiftLibrary/src/lib/spectrum/spectrum.cpp: CSpectrum(CSpectrum const&, TFloat64List const&)"]}
{"id": "C35", "title": "Lambda range clamping", "statement": "ClampLambdaRange returns the intersection of the wanted range with the axis range when they overlap in more than a point, else an error; a returned range always satisfies begin<end and lies in both.", "quantifier": "all axes and ranges", "why_tests_cant": "all relative positions", "anchors": ["RedshiftLibrary/src/lib/spectrum/spectralaxis.cpp: CSpectrumSpectralAxis::ClampLambdaRange"]}
{"id": "C36", "title": "Wavelength masks and index lookup", "statement": "GetMask marks exactly the samples inside the closed range; the overlap fraction computed with a mask equals the fraction of in-range samples kept by the mask; GetIndexAtWaveLength returns the first sample at or after the wavelength, clamped to the axis.", "quantifier": "all axes, ranges and masks", "why_tests_cant": "all lengths", "anchors": ["RedshiftLibrary/src/lib/spectrum/spectralaxis.cpp: GetMask, IntersectMaskAndComputeOverlapFraction, GetIndexAtWaveLength"]}
{"id": "C37", "title": "Linear rebinning interpolates and masks", "statement": "Linear rebinning onto a target grid returns for each target point in range the linear interpolation of its neighbours (so between their values, exact at source points) with mask 1, and 0 flux with mask 0 outside; it never reads out of bounds.", "quantifier": "all source and target grids", "why_tests_cant": "all relative positions of the grids", "anchors": ["RedshiftLibrary/src/lib/spectrum/rebin/rebinLinear.cpp", "RedshiftLibrary/src/lib/spectrum/rebin/rebin.cpp"]}
{"id": "C38", "title": "Smoothing windows stay in the spectrum", "statement": "Mean smoothing replaces each sample by the mean of its window clipped to the spectrum, so the result lies between min and max of the input, a constant spectrum is unchanged, and no sample outside is read.", "quantifier": "all spectra and widths", "why_tests_cant": "all lengths and widths", "anchors": ["RedshiftLibrary/src/lib/spectrum/fluxaxis.cpp: ApplyMeanSmooth, ApplyMedianSmooth"]}
{"id": "C39", "title": "Flux correction repairs every invalid sample", "statement": "After correctFluxAndNoiseAxis every sample in the processed range is valid, valid samples are unchanged, it reports whether anything changed, and it fails only if there is no valid sample.", "quantifier": "all flux/noise vectors", "why_tests_cant": "all patterns of invalid samples", "anchors": ["RedshiftLibrary/src/lib/spectrum/fluxaxis.cpp: correctFluxAndNoiseAxis"]}
{"id": "C40", "title": "Validation accepts only spectra with all samples valid in the range", "statement": "If flux and noise validation accept a lambda range then every sample inside the range has finite flux and positive finite noise.", "quantifier": "all spectra and ranges", "why_tests_cant": "all lengths and positions of an invalid sample, incl. the last", "anchors": ["RedshiftLibrary/src/lib/spectrum/spectrum.cpp: ValidateFlux, ValidateNoise"]}
{"id": "C41", "title": "Template catalogue lists stay consistent", "statement": "Adding, setting and clearing templates in any order keeps the orthogonalised and log-sampled lists consistent with the original list, counts equal the number of templates of the category, and a template added is found by name.", "quantifier": "all operation histories", "why_tests_cant": "histories of any length", "anchors": ["RedshiftLibrary/src/lib/spectrum/template/catalog.cpp: CTemplateCatalog"]}
{"id": "C42", "title": "ISM/IGM corrections are reversible and commute", "statement": "Applying dust and IGM coefficients in any order or repeatedly gives original flux x dust coefficient x IGM coefficient of the last ones applied, on the active interval; re-initialising restores the original flux.", "quantifier": "all histories of apply/init operations", "why_tests_cant": "histories of any length", "anchors": ["RedshiftLibrary/src/lib/spectrum/template/template.cpp: ApplyDustCoeff, ApplyMeiksinCoeff, InitIsmIgmConfig"]}
{"id": "C43", "title": "Continuum decomposition", "statement": "Whatever the sequence of operations on a spectrum, when the continuum is estimated the raw flux equals continuum plus continuum-subtracted flux sample by sample, and selecting the flux type returns the matching one.", "quantifier": "all operation histories", "why_tests_cant": "histories of any length", "anchors": ["RedshiftLibrary/src/lib/spectrum/spectrum.cpp: EstimateContinuum, SetType, GetFluxAxis"]}
{"id": "C44", "title": "Best chi2 combination", "statement": "The bestChi2 combination is the normalised PDF of the pointwise smallest chi2 over the templates with a flat prior: it depends on nothing else of the templates (in particular not on their order), integrates to one and passes the PDF check unless it is flat; an unknown combination method is an error.", "quantifier": "any number of templates, all grids and chi2 arrays", "why_tests_cant": "any number of templates", "anchors": ["RedshiftLibrary/src/lib/operator/pdfz.cpp: COperatorPdfz::BestChi2, CombinePDF"]}
{"id": "C45", "title": "Best probability combination", "statement": "The bestproba combination is the pointwise largest template PDF divided by one number, such that its rectangle sum with a step within the range of grid steps is one; grids whose steps differ by more than the accepted 5 percent are refused.", "quantifier": "any number of templates, all grids and chi2 arrays", "why_tests_cant": "any number of templates", "anchors": ["RedshiftLibrary/src/lib/operator/pdfz.cpp: COperatorPdfz::BestProba"]}
{"id": "C46", "title": "Integrated probability of the candidates", "statement": "For every normalised PDF and every non-empty set of candidates on the grid the candidate computation ends without error; each candidate gets the integral of the PDF between the grid points that enclose its range (0 for a duplicate), between 0 and 1, and the first ranked candidate has a positive probability.", "quantifier": "all PDFs, grids and sets of candidates", "why_tests_cant": "all real inputs, any number of candidates", "anchors": ["RedshiftLibrary/src/lib/statistics/pdfcandidatesz.cpp: CPdfCandidatesZ::Compute, getCandidateSumTrapez", "RedshiftLibrary/src/lib/operator/pdfz.cpp: COperatorPdfz::Compute"]}
{"id": "C47", "title": "Log sampling is announced only for log-regular axes", "statement": "After any history of operations, an axis that announces log sampling has consecutive log wavelength steps that differ by at most the accepted 10 percent; an exactly geometric axis is always recognised.", "quantifier": "all axes with positive wavelengths and all operation histories", "why_tests_cant": "histories and lengths are unbounded", "anchors": ["RedshiftLibrary/src/lib/spectrum/spectralaxis.cpp: IsLogSampled, CheckLoglambdaSampling, ApplyOffset"]}
{"id": "C48", "title": "Sub-sampling mask", "statement": "The sub-sampling mask of ratio r over an index range selects exactly the samples of the range whose distance to the range end is a multiple of r, and is refused for axes that are not log sampled.", "quantifier": "all axes, ratios and ranges", "why_tests_cant": "all lengths and ratios", "anchors": ["RedshiftLibrary/src/lib/spectrum/spectralaxis.cpp: GetSubSamplingMask"]}
{"id": "C49", "title": "Axis resolution", "statement": "The mean resolution of an axis is the distance of its ends over the number of steps; the resolution at a wavelength is the positive distance of two neighbouring samples.", "quantifier": "all strictly increasing axes and wavelengths", "why_tests_cant": "all lengths", "anchors": ["RedshiftLibrary/src/lib/spectrum/spectralaxis.cpp: GetMeanResolution, GetResolution"]}
{"id": "C50", "title": "Nearest, spline and fine-grid rebinning", "statement": "For every source axis and sorted target axis, nearest-grid-point, spline and fine-grid rebinning end without out-of-bounds access, mask in exactly the targets inside the requested range, give them the value of a nearest source sample / the spline at the target / the spline within half a fine step, and refuse error interpolation where it is not implemented.", "quantifier": "all source and target grids, ranges and error modes", "why_tests_cant": "all relative positions of the grids", "anchors": ["RedshiftLibrary/src/lib/spectrum/rebin/rebinNgp.cpp", "RedshiftLibrary/src/lib/spectrum/rebin/rebinSpline.cpp", "RedshiftLibrary/src/lib/spectrum/rebin/rebinFineGrid.cpp", "RedshiftLibrary/src/lib/spectrum/rebin/rebin.cpp"]}
{"id": "C51", "title": "Spectrum validation end to end", "statement": "A spectrum accepted by ValidateSpectrum has a strictly sorted axis of the size of its flux, a range that meets the axis, finite flux and valid noise on every checked sample, a flux that is not all null, and an LSF available at both ends; with correction enabled one valid sample is enough, and valid samples are never changed.", "quantifier": "all spectra, ranges and LSFs", "why_tests_cant": "all lengths and patterns of invalid samples", "anchors": ["RedshiftLibrary/src/lib/spectrum/spectrum.cpp: CSpectrum::ValidateSpectrum, IsValid, correctSpectrum, ValidateFlux, ValidateNoise"]}
{"id": "C52", "title": "Trapezium integration of the flux", "statement": "The flux integrated over a list of index ranges is the sum of the trapezium areas of the ranges and the error sums the per-step error terms; axes of different sizes or with fewer than two samples are refused.", "quantifier": "all axes and lists of ranges", "why_tests_cant": "any number of ranges and samples", "anchors": ["RedshiftLibrary/src/lib/spectrum/spectrum.cpp: integrateFluxes_usingTrapez"]}
{"id": "C53", "title": "Sliding median and mean continuum", "statement": "The continuum of the irregular sampling median estimator is obtained from windows around each sample: with nothing but one constant in the flux it returns that constant, its amplitude and window sizes follow the resolution and width as documented, its values stay between the smallest and largest flux, it scales with the flux, and undersized spectra or invalid amplitudes are refused.", "quantifier": "all spectra, widths, resolutions and cycle counts", "why_tests_cant": "any number of samples, every window size and position", "anchors": ["RedshiftLibrary/src/lib/continuum/irregularsamplingmedian.cpp: CContinuumIrregularSamplingMedian"]}
{"id": "C54", "title": "Derived templates follow the LSF and the spectrum sampling", "statement": "For every spectrum processed, whatever spectra came before, the orthogonalised templates in use are the orthogonalisations with the LSF of that spectrum of the original and log-sampled templates in use, one for one, and the log-sampled templates all fit the sampling asked for; original templates and other spectrum models are left alone.", "quantifier": "all catalogues and all sequences of spectra, LSFs and log samplings", "why_tests_cant": "caches kept between spectra: depends on the whole history", "anchors": ["RedshiftLibrary/src/lib/linemodel/templatesortho.cpp: CTemplatesOrthogonalization::Orthogonalize, prepareTplCatForOrthogonalization, hasLogRebinnedTemplatesChanged", "RedshiftLibrary/src/lib/spectrum/logrebinning.cpp: CSpectrumLogRebinning::logRebinTemplateCatalog", "RedshiftLibrary/src/lib/processflow/inputcontext.cpp: CInputContext::OrthogonalizeTemplates"]}
{"id": "C55", "title": "Calzetti dust attenuation", "statement": "A dust curve is accepted exactly when its wavelengths are regularly spaced; for each wavelength inside the curve and each dust index the correction is 10^(-0.4 k E(B-V)) with k the curve value at the nearest tabulated wavelength and E(B-V) the value of that index, it lies in (0,1] and decreases with E(B-V); outside the curve it is 1, and indexes above the list are refused.", "quantifier": "all curves, E(B-V) grids, indexes and wavelengths", "why_tests_cant": "real-valued inputs and tables of any length", "anchors": ["RedshiftLibrary/src/lib/spectrum/fluxcorrectioncalzetti.cpp: CSpectrumFluxCorrectionCalzetti", "RedshiftLibrary/RedshiftLibrary/spectrum/fluxcorrectioncalzetti.h: CalzettiCorrection"]}
{"id": "C56", "title": "Line profiles and their derivatives", "statement": "For every line profile the value returned as line flux is the integral of the profile, the values returned as derivatives are the derivatives of the profile with respect to its centre and its width, an asymmetric profile centred on its mean has its mean at the requested place, and profiles whose parameters are unusable are refused.", "quantifier": "all profiles, positions, widths and asymmetry parameters", "why_tests_cant": "statements on real functions: derivatives and integrals", "anchors": ["RedshiftLibrary/src/lib/line/lineprofileSYM.cpp", "RedshiftLibrary/src/lib/line/lineprofileLOR.cpp", "RedshiftLibrary/src/lib/line/lineprofileASYM.cpp", "RedshiftLibrary/src/lib/line/lineprofileASYMFIT.cpp", "RedshiftLibrary/RedshiftLibrary/line/lineprofile*.h"]}
{"id": "C57", "title": "Line spread functions", "statement": "An LSF is built exactly when its widths or resolution are usable (positive widths, as many as wavelengths, resolution above 1); its width is positive wherever it is available; a tabulated LSF interpolates linearly between its two surrounding wavelengths and refuses wavelengths outside its table; the normalised profile over any list of wavelengths is positive, sums to one and keeps the proportions of the profile.", "quantifier": "all LSFs, wavelengths and steps", "why_tests_cant": "real parameters, tables of any length", "anchors": ["RedshiftLibrary/src/lib/spectrum/LSF.cpp", "RedshiftLibrary/src/lib/spectrum/LSFConstantResolution.cpp", "RedshiftLibrary/src/lib/spectrum/LSFVariableWidth.cpp", "RedshiftLibrary/src/lib/spectrum/LSF_NISPSIM_2016.cpp", "RedshiftLibrary/src/lib/spectrum/LSF_NISPVSSPSF_201707.cpp"]}
{"id": "C58", "title": "Intergalactic extinction", "statement": "After the extinction tables are convolved with the LSF of the spectrum being processed, the correction at a redshift and rest wavelength is 1 above Lyman alpha and below the first redshift bin, and elsewhere the value, at the nearest table sample, of the LSF-weighted mean of the raw curve of the redshift bin, hence between the bounds of the raw curve; vectors of corrections and derivatives agree with single lookups, and an undefined extinction index is refused.", "quantifier": "all tables, LSFs, ranges, redshifts, wavelengths and sequences of spectra", "why_tests_cant": "any table size, real-valued inputs, and state kept between spectra", "anchors": ["RedshiftLibrary/src/lib/spectrum/fluxcorrectionmeiksin.cpp: CSpectrumFluxCorrectionMeiksin", "RedshiftLibrary/src/lib/processflow/inputcontext.cpp: CInputContext::Init"]}
{"id": "C59", "title": "Line profile absorbed by the intergalactic medium", "statement": "The value of the absorbed profile is the Gaussian times the transmission at the rest wavelength, its derivatives are those of that value, its flux is the integral of that value, above Lyman alpha it is the Gaussian, and a profile without extinction tables is refused.", "quantifier": "all positions, widths, redshifts and extinction tables", "why_tests_cant": "statements on real functions over tables of any size", "anchors": ["RedshiftLibrary/src/lib/line/lineprofileSYMIGM.cpp: CLineProfileSYMIGM"]}
{"id": "C60", "title": "Logarithmic resampling keeps spectra, redshifts and templates aligned", "statement": "A spectrum that is not log-sampled is resampled at exactly the points lambda_min*exp(k*step) of the requested range that it covers, unmasked and linearly interpolated, or is refused; the redshift range is extended by less than one step to a whole number of steps; the number of template samples is always whole; and every sample of the resampled spectrum, brought to rest at every redshift of the grid, is exactly a sample of every resampled template. A resampled template kept for a later run is aligned with the new setup.", "quantifier": "all spectra, wavelength and redshift ranges, steps, templates and sampling ratios", "why_tests_cant": "grids of any size over the reals; alignment must hold for every sample and redshift", "anchors": ["RedshiftLibrary/src/lib/spectrum/logrebinning.cpp: CSpectrumLogRebinning"]}
{"id": "C61", "title": "Rounded log-sampled wavelengths are restored", "statement": "Recomputing the wavelengths of a log-sampled axis whose samples are rounded gives an exact logarithmic grid with the same number of samples, every sample being within three rounding errors of the true grid (an exact grid is unchanged); an axis that is not log-sampled or has fewer than 301 samples is refused.", "quantifier": "all rounded logarithmic grids, of any size, step and rounding error", "why_tests_cant": "any number of samples and any real rounding errors", "anchors": ["RedshiftLibrary/src/lib/spectrum/spectralaxis.cpp: RecomputePreciseLoglambda"]}
{"id": "C62", "title": "Resampled inputs correspond to the inputs", "statement": "After the inputs are resampled, the i-th resampled spectrum and the i-th resampled range are those of the i-th input spectrum, and the redshift range used for a spectrum model is the one of its template resampling (or its parameter without FFT processing), also when the same context is initialised again.", "quantifier": "all lists of spectra, log-sampled or not, all lists of spectrum models, all histories of the context", "why_tests_cant": "any number of spectra and any history", "anchors": ["RedshiftLibrary/src/lib/processflow/inputcontext.cpp: RebinInputs", "RedshiftLibrary/src/lib/method/objectSolve.cpp: GetRedshiftSampling"]}
{"id": "C63", "title": "Air to vacuum conversion keeps wavelengths ordered and is invertible", "statement": "For each published reference a non-empty list of wavelengths within its range is converted without warning into as many wavelengths in the same strict order, vacuum to air by division by the published refractive index; converting to vacuum and back gives the wavelengths within 1.1e-7 (1e-8 for morton2000) of relative error; empty lists, wavelengths out of range and unknown names are refused; a spectral axis built with a reference stays strictly increasing.", "quantifier": "all references, all lists of real wavelengths", "why_tests_cant": "real-valued wavelengths and lists of any length", "anchors": ["RedshiftLibrary/src/lib/line/airvacuum.cpp: CAirVacuum::VacToAir, AirToVac, CAirVacMorton2000::AirToVac, CheckWaveRange, CAirVacuumConverter::Get", "RedshiftLibrary/src/lib/spectrum/spectralaxis.cpp: convertToVacuum"]}
{"id": "C64", "title": "Template amplitude is the least squares amplitude", "statement": "For any samples with non-null errors and a model that is not null everywhere, the amplitude reported by the template fit is the unique minimiser of the chi2 (plus the amplitude prior when there is one), except when it is below the significance threshold times its error, in which case it is zero; the error is that of the least squares amplitude, and the chi2 reported is the one of the reported amplitude.", "quantifier": "all lists of samples, priors and thresholds", "why_tests_cant": "the minimum is over a continuum of amplitudes and any number of samples", "anchors": ["RedshiftLibrary/src/lib/operator/templatefitting.cpp ComputeAmplitudeAndChi2", "RedshiftLibrary/src/lib/operator/templatefittingBase.cpp applyPositiveAndNonNullConstraint"]}
{"id": "C65", "title": "Template fit explores every dust and IGM configuration", "statement": "At one redshift, the table of intermediate results of a template fit holds, for every dust and every IGM configuration asked for, the chi2 of the least squares fit of the template with these extinctions to all the unmasked samples of all the observations, and the reported fit, E(B-V) and IGM index are those of the first configuration of smallest chi2 (IGM index -1 when no sample is in the IGM range); the fast processing of several IGM curves gives the same sums as the full one.", "quantifier": "all observations, masks, ranges, extinction curves, lists of configurations and priors", "why_tests_cant": "the shortcut for several IGM curves depends on where the IGM range ends in each observation; tests use a few data sets", "anchors": ["RedshiftLibrary/src/lib/operator/templatefitting.cpp BasicFit", "RedshiftLibrary/src/lib/operator/templatefitting.cpp ComputeCrossProducts", "RedshiftLibrary/src/lib/spectrum/template/template.cpp ApplyMeiksinCoeff"]}
{"id": "C66", "title": "Classification gives probabilities and the most likely category", "statement": "When every category has a method and every stored result is a PDF result with an evidence above -DBL_MAX or minus infinity, at least one being a number, the classification gives each category the probability exp(evidence)/sum of exp(evidences) (zero without result), the probabilities are in [0,1] and add up to one, and the label is the first category of largest evidence; with no evidence at all it stops with a dedicated error.", "quantifier": "all lists of categories, methods, stored results and evidences", "why_tests_cant": "any number of categories and any real evidences", "anchors": ["RedshiftLibrary/src/lib/method/classificationsolve.cpp: CClassificationSolve::compute", "RedshiftLibrary/src/lib/method/classificationresult.cpp"]}
{"id": "C67", "title": "Fitted amplitudes of a line element follow its nominal amplitudes", "statement": "Setting the amplitude of an element gives each line seen by some spectrum that amplitude times its nominal amplitude (cut at the absorption limit for absorption), NaN to the others, and reading it back gives the value set; limiting a line above a limit brings it to the limit (zero if negative) and keeps the nominal ratios of the element, and changes nothing when the line is not above.", "quantifier": "all elements, lines, nominal amplitudes, flags, amplitudes and limits", "why_tests_cant": "real amplitudes and any number of lines", "anchors": ["RedshiftLibrary/src/lib/linemodel/elementparam.cpp", "RedshiftLibrary/RedshiftLibrary/linemodel/elementparam.h: setFittedAmplitude, LimitFittedAmplitude", "RedshiftLibrary/src/lib/linemodel/element.cpp: SetElementAmplitude, GetElementAmplitude"]}
{"id": "C68", "title": "Two-line amplitude rules bound the second line and keep the ratio in range", "statement": "The single-lines rule brings the second line to max(0, c a) when above c a and changes nothing else; it does nothing when a line is missing, in the same element, in a multi-line element or out of range. The ratio rule leaves amplitudes within a factor R of each other, otherwise replaces them by the inverse variance weighted mean and its R-th part; the result is between the two estimates and applying the rule again changes nothing.", "quantifier": "all element lists, tags, coefficients, amplitudes and errors", "why_tests_cant": "any number of elements and real amplitudes", "anchors": ["RedshiftLibrary/src/lib/line/rule2singlelinesamplitude.cpp", "RedshiftLibrary/src/lib/line/ruleOIIRatioRange.cpp", "RedshiftLibrary/src/lib/linemodel/lmeltlistvector.cpp: findElementIndex"]}
{"id": "C69", "title": "Strong line rules cap the weak lines", "statement": "After the strong/weak rule every weak line in range of the elements of the type is at most max(0, m+s), m being the lowest amplitude of a strong line in range and s its error; elements below are untouched, the others are rescaled as a whole; with no strong line nothing changes and an undefined error is reported. The super strong rule does the same with the highest super strong line and all other lines.", "quantifier": "all element lists in any order", "why_tests_cant": "the lowest strong line is searched over all elements, then every weak line of every element is limited in sequence", "anchors": ["RedshiftLibrary/src/lib/line/ruleStrongHigherThanWeak.cpp", "RedshiftLibrary/src/lib/line/ruleSuperStrongHighest.cpp"]}
{"id": "C70", "title": "The regulament applies exactly the selected rules, in order, to amplitudes only", "statement": "Rules change nothing but fitted amplitudes and errors; disabled rules are as if absent; a rule is enabled exactly when the option is 'all' or contains its name; with 'no' nothing runs; two sets of rules run in sequence.", "quantifier": "all rule lists, options and element lists", "why_tests_cant": "composition of any number of rules", "anchors": ["RedshiftLibrary/src/lib/line/regulament.cpp", "RedshiftLibrary/src/lib/line/rule.cpp", "RedshiftLibrary/src/lib/linemodel/rulesmanager.cpp"]}
{"id": "C71", "title": "Supports of a line element", "statement": "For a line in range the samples of its theoretical support are within the spectrum; lines of an element whose supports overlap are merged into one support shared by all of them: the merged supports cover exactly the same samples as the supports of the lines, each line in range belongs to one support and is active on it together with exactly the other lines of that support, and after at most 20 passes (up to 21 lines) no two supports overlap by more than an end sample.", "quantifier": "all increasing spectral axes, ranges, and lists of lines with any positions and widths", "why_tests_cant": "any number of lines, any order and any chain of overlaps", "anchors": ["RedshiftLibrary/src/lib/linemodel/element.cpp: prepareSupport, EstimateTheoreticalSupport, EstimateIndexRange"]}
{"id": "C72", "title": "Flux model of an element counts each line once", "statement": "Adding an element to a model adds to each sample, once for every line in range whose support group covers that sample (and is the group of the line asked for, if any), its amplitude times its profile (times minus the continuum for absorption, nothing when negative or undefined) and leaves the other samples unchanged; resetting the model under an element restores the continuum on exactly the same samples.", "quantifier": "all spectra, elements, amplitudes, profiles, continua and requested lines", "why_tests_cant": "any overlap pattern of lines", "anchors": ["RedshiftLibrary/src/lib/linemodel/element.cpp: addToSpectrumModel, getModelAtLambda, initSpectrumModel, addToSpectrumModelDerivVel"]}
{"id": "C73", "title": "Fitted amplitude of an element is the non-negative least squares amplitude", "statement": "For every set of spectra with non-null errors, fitting the amplitude of a line element that is visible in at least one of them, whose lines do not share a sample while being in different supports, sets the unique amplitude in [0, infinity) that minimises the chi-square, summed over all the samples of all the spectra, between the flux without continuum and the flux model of that element; the fast least-squares merit equals the change of chi-square with respect to a null amplitude; the wavelength-offset scan keeps the first offset with the smallest merit and ignores merits that are not numbers; if the unit model of the element is null everywhere the amplitudes and the sums become not-a-number; an element that is outside of every spectrum is left unchanged.", "quantifier": "every list of spectra, errors, supports, profiles, nominal amplitudes and selected line", "why_tests_cant": "A test checks a few spectra; optimality is a statement about all amplitudes and every spectrum.", "anchors": ["RedshiftLibrary/src/lib/linemodel/abstractfitter.cpp:fitAmplitude", "RedshiftLibrary/src/lib/linemodel/abstractfitter.cpp:getLeastSquareMeritFast", "RedshiftLibrary/src/lib/linemodel/abstractfitter.cpp:fitAmplitudeAndLambdaOffset", "RedshiftLibrary/src/lib/linemodel/element.cpp:computeCrossProducts"]}
{"id": "C74", "title": "Samples, fitting groups and amplitude offsets of a list of elements", "statement": "For every list of element indexes in range, the samples of the list are strictly increasing and are exactly the samples covered by a visible line of one of these elements; the fitting groups are, in the order of their names and without the undefined name, the considered elements of each name in the order of the list; adding the amplitude offsets leaves a sample covered by no group unchanged and adds to any other one, once, the polynomial of the first group covering it. An empty list stands for all the elements.", "quantifier": "every list of elements, supports, groups, types, indexes and flux", "why_tests_cant": "A test checks a few layouts of lines; it must hold for every layout and grouping.", "anchors": ["RedshiftLibrary/src/lib/linemodel/elementlist.cpp:getSupportIndexes", "RedshiftLibrary/src/lib/linemodel/elementlist.cpp:getFittingGroups", "RedshiftLibrary/src/lib/linemodel/elementlist.cpp:addToSpectrumAmplitudeOffset"]}
{"id": "C75", "title": "Overlapping elements and groups of the hybrid fit", "statement": "For every list of elements and threshold, the elements overlapping a reference element are, in increasing order without duplicates, the reference and exactly the non excluded elements of the same type with a visible line sharing more than the threshold fraction of the window of a visible line of the reference; the hybrid fit puts every visible and enabled element in exactly one group, no element is fitted twice, and each group is the element it starts from with the elements overlapping it that no earlier group took.", "quantifier": "every list of elements, line positions and windows, disabled elements and threshold", "why_tests_cant": "A test checks a few pairs of lines; coverage and uniqueness are statements about every list.", "anchors": ["RedshiftLibrary/src/lib/linemodel/elementlist.cpp:getOverlappingElements", "RedshiftLibrary/src/lib/linemodel/elementlist.cpp:GetModelValidElementsIndexes", "RedshiftLibrary/src/lib/linemodel/hybridfitter.cpp:fitAmplitudesHybrid"]}
{"id": "C76", "title": "Velocity groups", "statement": "For every list of elements and line type, there is one velocity group for each velocity tag of a line of that type in a visible and enabled element, in the order of the tags, listing exactly the valid elements with such a line in increasing order, each as many times as it has lines of that tag.", "quantifier": "every list of elements, tags, types and disabled elements", "why_tests_cant": "A test checks one catalogue; it must hold for every catalogue and visibility.", "anchors": ["RedshiftLibrary/src/lib/linemodel/elementlist.cpp:GetModelVelfitGroups", "RedshiftLibrary/src/lib/linemodel/elementlist.cpp:GetModelValidElementsIndexes"]}
{"id": "C77", "title": "Joint fit of amplitudes", "statement": "For every list of distinct elements and consistent spectrum with non-null errors and at least as many samples as parameters, the joint fit succeeds, and when the linear solver solves least squares problems the amplitudes and polynomial it sets minimise the chi-square of the sum of the elements (all visible lines, not truncated) and of the polynomial on the samples of the elements, in the units of the spectrum. Whatever the solver returns, the positive joint fit leaves no negative amplitude in the listed elements and changes nothing but their amplitudes.", "quantifier": "every list of elements, amplitudes, spectrum, profiles, offsets option and solver", "why_tests_cant": "A test checks a few pairs of lines; optimality and positivity are statements about every spectrum and every answer of the solver.", "anchors": ["RedshiftLibrary/src/lib/linemodel/svdfitter.cpp:fitAmplitudesLinSolve", "RedshiftLibrary/src/lib/linemodel/svdfitter.cpp:fitAmplitudesLinSolvePositive"]}
{"id": "C78", "title": "Every catalogue line is modelled by exactly one element", "statement": "A line catalogue keeps one line per identifier (the last one added) in identifier order; filtering by type and force keeps exactly the lines asked for; loading it for the line model puts every line in exactly one element: one element per group (ungrouped lines alone), one per line, or one for absorption and one for emission; looking up a line identifier gives the element and position of that line, and nothing for an unknown identifier. False when an ungrouped line shares its string identifier with another, for groups mixing types, and for lines without type.", "quantifier": "every sequence of additions of lines, every filter, every identifier", "why_tests_cant": "catalogues of any size and grouping; the lookup invariant holds for all of them", "anchors": ["RedshiftLibrary/src/lib/line/catalog.cpp:GetFilteredList/ConvertToGroupList", "RedshiftLibrary/RedshiftLibrary/line/catalog.h:Add", "RedshiftLibrary/src/lib/linemodel/lmeltlistvector.cpp:LoadCatalog/LoadCatalogOneLineByElement/LoadCatalogTwoMultilinesAE/findElementIndex", "RedshiftLibrary/src/lib/line/line.cpp:string2Type"]}
{"id": "C79", "title": "Line ratio catalogues start at zero and keep what is set", "statement": "A line ratio catalogue built from a base catalogue has the same lines with nominal amplitude 0, prior 1 and dust coefficient 0; setting the amplitude of a line changes that line only and an unknown line is refused; a velocity group can be added once: a second addition is refused, the velocities read are those added, and an unknown group raises std::out_of_range.", "quantifier": "every catalogue, every sequence of velocity additions", "why_tests_cant": "histories of any length", "anchors": ["RedshiftLibrary/src/lib/line/lineRatioCatalog.cpp:CLineRatioCatalog", "RedshiftLibrary/src/lib/line/catalog.cpp:setLineAmplitude"]}
{"id": "C80", "title": "Loops over several spectra visit each spectrum once", "statement": "A loop over the spectra of an object whose body does not itself loop over them visits each spectrum once in order whatever was current before; a loop left early leaves the current spectrum at the one where it was left; after a complete loop reading the current spectrum is refused; an element or a line is flagged outside globally if and only if it is outside of every spectrum, and the number of degrees of freedom counts the elements seen by some spectrum that have a positive amplitude. Nested loops never end.", "quantifier": "every number of spectra, every loop body, every state of the shared index", "why_tests_cant": "any number of spectra and any history of the shared index", "anchors": ["RedshiftLibrary/RedshiftLibrary/linemodel/obsiterator.h:CSpectraGlobalIndex", "RedshiftLibrary/src/lib/linemodel/lmeltlistvector.cpp:setGlobalOutsideLambdaRangeFromSpectra/computeOutsideLambdaRange/GetModelNonZeroElementsNDdl"]}
{"id": "C81", "title": "The model spectrum is the continuum plus the lines", "statement": "Refreshing the model of a spectrum gives, at each sample, the continuum plus (if enabled) the amplitude offsets plus the flux of the lines of the chosen type; refreshing only some elements sets the samples they cover to the continuum plus their lines and leaves the other samples; after a full refresh, changing some elements and refreshing them gives the full model when no other element covers their samples. The exceptions are stated: overlaps with other elements, amplitude offsets, and the model of a list of overlapping elements, where only the last one covering a sample counts.", "quantifier": "every increasing spectral axis, every prepared list of elements, every continuum", "why_tests_cant": "supports of any number of elements in any position", "anchors": ["RedshiftLibrary/src/lib/linemodel/spectrummodel.cpp:refreshModel", "RedshiftLibrary/src/lib/linemodel/spectrummodel.cpp:refreshModelUnderElements", "RedshiftLibrary/src/lib/linemodel/spectrummodel.cpp:getModel"]}
{"id": "C82", "title": "The spectrum with the lines removed", "statement": "The spectrum returned with the lines of a type removed is the observed flux minus the model plus the continuum at the samples that no counted element covers, and at the others a mean of that value and of the observed flux with the largest line weight there, a weight between 0 and 1. The exceptions are stated: asking for all types does not remove the lines, and the call leaves the model with the lines of one type.", "quantifier": "every axis, elements, model and type", "why_tests_cant": "every arrangement of overlapping supports", "anchors": ["RedshiftLibrary/src/lib/linemodel/spectrummodel.cpp:getObservedSpectrumWithLinesRemoved", "RedshiftLibrary/src/lib/linemodel/spectrummodel.cpp:GetWeightingAnyLineCenterProximity", "RedshiftLibrary/src/lib/linemodel/spectrummodel.cpp:getContinuumError"]}
{"id": "C83", "title": "Residual under elements", "statement": "The squared residual under some elements counts each sample covered by one of them once, with weight one over the squared error of the model; the residual over several spectra is the root of the sum of residuals over the sum of weights, leaving out the spectra of null residual; it is NaN for no element or a perfect fit; in the modes without a spectrum continuum the errors are 1 whatever operations were made; the continuum set from a template is the sum of the scaled template, the scaled spectrum continuum and the polynomial. Without the continuum the residual compares the flux without continuum with a model that has it.", "quantifier": "every list of spectra and elements, every sequence of operations on the model", "why_tests_cant": "sums over any number of samples and spectra, histories of any length", "anchors": ["RedshiftLibrary/src/lib/linemodel/spectrummodel.cpp:getModelSquaredResidualUnderElements", "RedshiftLibrary/RedshiftLibrary/linemodel/spectrummodel.h:getModelResidualRmsUnderElements", "RedshiftLibrary/src/lib/linemodel/spectrummodel.cpp:setContinuumFromTplFit"]}
{"id": "C84", "title": "Merits and likelihood constant of the line model", "statement": "The least square merits, dtd and mtm of the line model are sums over the spectra of weighted squares over the samples from the begin of the range up to (not including) its end; the least square merit is 0 exactly when the model equals the flux at these samples and equals dtd minus twice the cross term plus mtm; the number of samples is that of these sums; the constant of the likelihood counts the closed range. The exceptions are stated: the last sample is in the constant and not in the merit, and dtd is kept when the spectra change but not the first range.", "quantifier": "every list of spectra, ranges, models and errors", "why_tests_cant": "sums of any length; call histories", "anchors": ["RedshiftLibrary/src/lib/linemodel/linemodelfitting.cpp:initDtd", "RedshiftLibrary/src/lib/linemodel/linemodelfitting.cpp:EstimateDTransposeD", "RedshiftLibrary/src/lib/linemodel/linemodelfitting.cpp:EstimateMTransposeM", "RedshiftLibrary/src/lib/linemodel/linemodelfitting.cpp:EstimateLikelihoodCstLog", "RedshiftLibrary/src/lib/linemodel/lineratiomanager.cpp:getLeastSquareMerit"]}
{"id": "C85", "title": "Cumulated signal to noise of the lines", "statement": "The supports of the strong and weak lines are merged into supports that cover exactly the same samples, strong when one of their lines is; the cumulated signal to noise is the sum over the merged supports of the absolute summed line flux over the root of the summed variances; the weighted flux of a line and the mean continuum under it are the stated sums over its support. Exception: for lines in another order than that of their supports merged supports overlap and samples count twice.", "quantifier": "every list of supports, every spectrum", "why_tests_cant": "merging of any number of intervals", "anchors": ["RedshiftLibrary/src/lib/linemodel/linemodelfitting.cpp:getCumulSNRStrongEL", "RedshiftLibrary/src/lib/linemodel/linemodelfitting.cpp:getCumulSNROnRange", "RedshiftLibrary/src/lib/linemodel/linemodelfitting.cpp:getMeanContinuumUnderLine"]}
{"id": "C86", "title": "Searches of line offsets and profiles", "statement": "The search of the offset of an element leaves the offset of smallest merit among those tried, the first one, with the amplitude a fit gives for it, and the last one tried if none is below the bound; the offsets tried are equally spaced from the minimum and never reach the maximum; the profile searches keep the first parameters of smallest residual over the whole grid (defaults, or none, if no fit is valid). The index of the current spectrum stays valid in individual and joint fits without offsets; a joint fit with offsets to fit, and the refit of a Balmer pair, always end in INVALID_SPECTRUM_INDEX.", "quantifier": "every grid, merit function, number of spectra and sequence of branches taken", "why_tests_cant": "grids of any size, branches depending on data", "anchors": ["RedshiftLibrary/src/lib/linemodel/abstractfitter.cpp:fitAmplitudeAndLambdaOffset", "RedshiftLibrary/src/lib/linemodel/abstractfitter.cpp:fitAsymParameters", "RedshiftLibrary/src/lib/linemodel/abstractfitter.cpp:fitAsymIGMCorrection", "RedshiftLibrary/src/lib/linemodel/svdfitter.cpp:fitAmplitudesLinSolveAndLambdaOffset", "RedshiftLibrary/src/lib/linemodel/hybridfitter.cpp:improveBalmerFit"]}
{"id": "C87", "title": "Precomputed continuum fits are kept sorted and found", "statement": "After any sequence of CTemplatesFitStore::Add calls, each redshift of the grid holds exactly the solutions given for it, by increasing merit, then decreasing absolute amplitude sigma, then order of insertion; Add at a redshift outside the grid raises INTERNAL_ERROR and changes nothing; GetContinuumCount is the greatest number of solutions of a redshift; GetFitValues returns the solution of the asked rank or raises INTERNAL_ERROR; FindMaxAmplitudeSigma gives the greatest sigma of the best solutions, at its first redshift.", "quantifier": "every grid of redshifts, every sequence of solutions, every index, redshift and rank asked", "why_tests_cant": "the order must hold for every history of insertions and ties; lookups for every grid size and rank", "anchors": ["RedshiftLibrary/src/lib/linemodel/templatesfitstore.cpp: CTemplatesFitStore::Add, GetFitValues, FindMaxAmplitudeSigma, GetRedshiftIndex"]}
{"id": "C88", "title": "Normalised polynomials are the same function", "statement": "The plain coefficients given by CPolynomCoeffsNormalized::getCoeffs define the same values as getValue everywhere; setCoeffs followed by getCoeffs, and getCoeffs followed by setCoeffs, change nothing; getValueAndGrad gives the value and the derivatives with respect to the coefficients, also for TPolynomCoeffs.", "quantifier": "every coefficients, centre, non-null scale and abscissa", "why_tests_cant": "identities over all real parameters", "anchors": ["RedshiftLibrary/src/lib/common/polynom.cpp: getCoeffs, setCoeffs, getValue, getValueAndGrad"]}
{"id": "C89", "title": "Flux in a photometric band is a mean over the band", "statement": "CPhotometricBand::IntegrateFlux is linear in the spectrum, gives F for a spectrum of constant flux F per unit of frequency, and is between the smallest and the greatest flux per unit of frequency of the samples for a band with increasing wavelengths and non-negative transmissions; sizes that differ raise INTERNAL_ERROR; adding a band under a known name keeps the first band.", "quantifier": "every band (any number of samples), every spectrum", "why_tests_cant": "a weighted mean property over all bands and spectra", "anchors": ["RedshiftLibrary/src/lib/photometry/photometricband.cpp: CPhotometricBand, IntegrateFlux", "RedshiftLibrary/RedshiftLibrary/photometry/photometricband.h: CPhotBandCatalog::Add"]}
{"id": "C90", "title": "Photometry enters the template fit once, as a weighted least square", "statement": "In COperatorTemplateFittingPhot the photometric sums of every configuration of dust and IGM are the sums over all the bands of the products of data and template fluxes over the squared errors times the squared weight, so that the photometric chi2 is the weighted sum of squared differences, with or without the fast IGM processing; the fit is refused when a band has no photometric point.", "quantifier": "every list of bands, data, weights, IGM and dust index", "why_tests_cant": "holds for every number of bands and every order of IGM configurations; the fast path must agree with the direct one", "anchors": ["RedshiftLibrary/src/lib/operator/templatefittingwithphot.cpp: ComputePhotCrossProducts, init_fast_igm_processing, checkInputPhotometry, ComputeAmplitudeAndChi2", "RedshiftLibrary/src/lib/photometry/photometricdata.cpp: CPhotometricData"]}
{"id": "C91", "title": "Likelihood constant with photometry", "statement": "The constant CstLog of a template fit with photometry is the constant of the normalised Gaussian likelihood of the spectra and of the photometric points with the errors that the chi2 uses.", "quantifier": "every spectra, errors and weights", "why_tests_cant": "an identity over all errors", "anchors": ["RedshiftLibrary/src/lib/operator/templatefittingwithphot.cpp: EstimateLikelihoodCstLog", "RedshiftLibrary/src/lib/operator/templatefittingBase.cpp: EstimateLikelihoodCstLog"]}
{"id": "C92", "title": "Photometric fluxes of the model", "statement": "The photometric values returned with the model spectrum of a candidate are the fluxes in the bands of that same model, amplitude included.", "quantifier": "every template, amplitude, list of bands", "why_tests_cant": "an identity over all amplitudes and bands", "anchors": ["RedshiftLibrary/src/lib/operator/templatefittingBase.cpp: ComputeSpectrumModel", "RedshiftLibrary/src/lib/operator/templatefittingwithphot.cpp: getIntegratedFluxes"]}
{"id": "C93", "title": "The line model fit reports one consistent best fit", "statement": "A fit of the line model over several continua and line ratio catalogs returns the smallest merit (first in order on ties), its solution, elements and loaded continuum all belong to that same fit, each catalog keeps its own best fit, and catalogs whose dust fit is disabled copy the catalog before them.", "quantifier": "every number of continua and catalogs, every merit and prior, dust fit enabled or not", "why_tests_cant": "needs all merit tables and tie orders; tests run a few catalogs with one continuum", "anchors": ["RedshiftLibrary/src/lib/linemodel/linemodelfitting.cpp:fit", "RedshiftLibrary/src/lib/linemodel/tplratiomanager.cpp:computeMerit", "RedshiftLibrary/src/lib/linemodel/tplratiomanager.cpp:duplicateTplratioResult"]}
{"id": "C94", "title": "Restoring the best ratio catalog gives back the fitted amplitudes", "statement": "The amplitudes and errors of the elements after the best line ratio catalog is restored are those its fit had set.", "quantifier": "every element, nominal amplitudes, flags, fitted amplitude and error, whatever later fits did", "why_tests_cant": "relation between two states over all amplitudes; tests look at one fit", "anchors": ["RedshiftLibrary/src/lib/linemodel/tplratiomanager.cpp:updateTplratioResults", "RedshiftLibrary/src/lib/linemodel/tplratiomanager.cpp:resetToBestRatio", "RedshiftLibrary/src/lib/linemodel/tplratiomanager.cpp:SetNominalAmplitudes"]}
{"id": "C95", "title": "Nominal amplitudes of a ratio catalog go to the right lines", "statement": "Each line of the model gets the nominal amplitude of the line of the same identifier in the ratio catalog, dimmed by the dust of the catalog for emission lines when asked; a missing line is an error.", "quantifier": "every catalog, element, identifier list and dust curve", "why_tests_cant": "needs every catalog order and identifier", "anchors": ["RedshiftLibrary/src/lib/line/catalogsTplRatio.cpp:InitLineCorrespondingAmplitudes"]}
{"id": "C96", "title": "Correction of fitted amplitudes by the closest ratio catalog", "statement": "The amplitudes fitted line by line are replaced by the least squares scaling of the catalog of smallest chi2.", "quantifier": "every list of amplitudes, errors and catalogs", "why_tests_cant": "minimality over all amplitudes and catalogs", "anchors": ["RedshiftLibrary/src/lib/line/catalogsTplRatio.cpp:GetBestFit", "RedshiftLibrary/src/lib/line/catalogsTplRatio.cpp:computeFitValue", "RedshiftLibrary/src/lib/linemodel/tplcorrmanager.cpp:computeMerit"]}
{"id": "C97", "title": "Line model results stay aligned with the redshift grid", "statement": "After initialisation, and after each refinement of the grid by windows of redshifts, every table of the line model result (merits, solutions, per continuum, per line ratio) has one entry per redshift; old redshifts keep their entry and new redshifts get the default values. The exception (the strong H-alpha table when re-initialised without line ratios) is stated and proved.", "quantifier": "every grid, window list, number of templates and line ratio catalogs, and prior content", "why_tests_cant": "holds after any sequence of refinements of any shape", "anchors": ["RedshiftLibrary/src/lib/operator/linemodelresult.cpp:Init", "RedshiftLibrary/src/lib/operator/linemodelresult.cpp:updateVectors", "RedshiftLibrary/src/lib/operator/linemodel.cpp:updateRedshiftGridAndResults"]}
{"id": "C98", "title": "Redshifts of each refinement window are found in the refined grid", "statement": "After refinement every redshift of every candidate window is found in the refined grid.", "quantifier": "every grid and list of windows", "why_tests_cant": "false when windows overlap; a test with separated candidates cannot show it", "anchors": ["RedshiftLibrary/src/lib/operator/linemodel.cpp:updateRedshiftGridAndResults", "RedshiftLibrary/src/lib/operator/linemodelresult.cpp:getRedshiftIndex"]}
{"id": "C99", "title": "Second pass windows around the candidates", "statement": "The window of a candidate is inside the grid range and inside the half window (in z or in log(1+z)), steps by the fine step, contains the candidate, and the refinement of separated candidates succeeds with every candidate and window redshift found.", "quantifier": "every candidate list, grid, half window and step", "why_tests_cant": "holds for every real position of the candidate relative to the grid borders", "anchors": ["RedshiftLibrary/src/lib/operator/linemodel.cpp:buildExtendedRedshifts", "RedshiftLibrary/src/lib/operator/linemodel.cpp:SpanRedshiftWindow"]}
{"id": "C100", "title": "First pass fits every redshift, and a null model is reported", "statement": "After the first pass each redshift of the grid holds the results of a fit at that redshift; NULL_MODEL is raised exactly when line and continuum amplitudes are null at every redshift.", "quantifier": "every grid and sequence of fit results (NaN included)", "why_tests_cant": "quantifies over all fit outcomes", "anchors": ["RedshiftLibrary/src/lib/operator/linemodel.cpp:ComputeFirstPass"]}
{"id": "C101", "title": "Second pass recomputes exactly the windows of the candidates", "statement": "Recomputation around candidates rewrites the results of exactly the redshifts of the windows, with the velocities and the continuum of the last candidate whose window contains the redshift; all other redshifts keep their first pass result; without candidate it is an error.", "quantifier": "every candidate list and overlap of windows", "why_tests_cant": "frame condition over all redshifts and overlaps", "anchors": ["RedshiftLibrary/src/lib/operator/linemodel.cpp:RecomputeAroundCandidates"]}
{"id": "C102", "title": "Velocity search around a candidate", "statement": "The search tests every velocity of the grid of each group at each redshift of the window and keeps the first smallest merit; candidates without tested merit keep their velocity.", "quantifier": "every velocity interval and step, window, and merit function", "why_tests_cant": "minimality over all tests and all NaN patterns", "anchors": ["RedshiftLibrary/src/lib/operator/linemodel.cpp:fitVelocity"]}
{"id": "C103", "title": "Line measurement returns the best redshift", "statement": "Line measurement returns the first redshift of smallest score of the grid and the solution of that fit; NaN when no redshift has a score; unsupported parameters are refused.", "quantifier": "every grid and score function", "why_tests_cant": "minimality over all grids and score functions", "anchors": ["RedshiftLibrary/src/lib/operator/linemodel.cpp:computeForLineMeas"]}
{"id": "C104", "title": "First pass candidates give disjoint second pass windows", "statement": "Candidates kept by the peak filter of the first pass (separation twice the half window) have second pass windows with no common redshift, so that the refinement of the grid succeeds and each candidate and every redshift of its window is found in the refined grid; always with the logarithmic sampling, with the linear sampling when redshifts are not negative.", "quantifier": "every candidate list kept by the filter, half window, step and grid", "why_tests_cant": "relates two passes for all real redshifts and windows", "anchors": ["RedshiftLibrary/src/lib/method/linemodelsolve.cpp:Solve", "RedshiftLibrary/src/lib/operator/linemodel.cpp:SpanRedshiftWindow, updateRedshiftGridAndResults", "RedshiftLibrary/RedshiftLibrary/statistics/pdfcandidatesz.h"]}
{"id": "C105", "title": "Candidates of one or two first passes", "statement": "The first pass keeps its candidates in order, each with the velocities and continuum fitted at its redshift. Combining with another first pass keeps all of them, then appends in order the candidates of the other pass that are not within 5e-4 of one of them, with the continuum this pass fitted there; nothing is lost, combining again adds nothing; a candidate outside the grid or without continuum name is an error.", "quantifier": "every pair of candidate lists, grid and threshold", "why_tests_cant": "set inclusion, order and idempotence over all candidate lists", "anchors": ["RedshiftLibrary/src/lib/operator/linemodelpassextremaresult.cpp:getUniqueCandidates, Resize", "RedshiftLibrary/src/lib/operator/linemodel.cpp:SetFirstPassCandidates, Combine_firstpass_candidates, buildFirstPassExtremaResults"]}
{"id": "C106", "title": "Models marginalised in the redshift PDF", "statement": "The array given to the PDF holds, for bestChi2, the line model alone; for marg and bestproba the line model or one model per ratio catalog (merit plus prior of its lines), then for each of them one variant per other continuum template whose merit is that of the model plus how much worse that continuum is (never better); each model has its redshift priors and, with catalogs, a share of the prior of the catalog, the shares summing to the priors of the catalogs. Sizes are consistent and the PDF accepts the array. Any other combination name is refused.", "quantifier": "every result table, number of catalogs and of continuum templates", "why_tests_cant": "sizes, sums and order hold for all numbers of models", "anchors": ["RedshiftLibrary/src/lib/method/linemodelsolve.cpp:BuildChisquareArray, fillChisquareArrayForTplRatio"]}
{"id": "C107", "title": "Redshift priors from the lines", "statement": "The prior at a redshift is the sum of: zero or log of the strong line factor according to the presence of a strong emission line in range with a positive amplitude; zero or log of the H-alpha factor according to H-alpha being the strongest emission line; and the number of H-alpha emitters term, between -log 1e12 and 0. A disabled prior contributes zero. With factors at most 1 a redshift with both lines is never penalised.", "quantifier": "every list of solutions (NaN amplitudes, lines out of range, empty solutions) and option values", "why_tests_cant": "holds for every solution and line list", "anchors": ["RedshiftLibrary/src/lib/method/linemodelsolve.cpp:BuildZpriors", "RedshiftLibrary/src/lib/operator/linemodelresult.cpp:getStrongLinesPresence, getStrongestLineIsHa"]}
{"id": "C108", "title": "Final candidates are saved consistently", "statement": "Saving the final candidates gives one result per candidate in order, each the result of a fit of the model set to the velocities and continuum stored at its redshift; other redshifts and the merits by continuum template are unchanged, and (unless the fitting method is random) no stored merit changes. Too many candidates, a candidate outside the grid, with an unknown parent, or whose merit is not reproduced, is an error.", "quantifier": "every candidate list, result table and fit function", "why_tests_cant": "frame condition over all redshifts, candidates and fit functions", "anchors": ["RedshiftLibrary/src/lib/operator/linemodel.cpp:buildExtremaResults"]}
{"id": "C109", "title": "Precomputed continuum fits of a pass are complete and ranked", "statement": "For any redshift grid without duplicates and any template results, the continuum store computed by the line model for a pass holds at each redshift the fits of all templates, by increasing merit, then decreasing absolute amplitude over error, then template order; it announces as many continua as templates; every rank can be read at every redshift; the signal to noise ratio kept is the greatest one that is a number.", "quantifier": "all grids, all lists of templates and all fit results", "why_tests_cant": "the order and the number of the fits are only visible through later lookups, for every grid and every tie", "anchors": ["RedshiftLibrary/src/lib/operator/linemodel.cpp PrecomputeContinuumFit", "RedshiftLibrary/src/lib/linemodel/templatesfitstore.cpp Add"]}
{"id": "C110", "title": "Negative and null continua are decided on all redshifts", "statement": "PrecomputeContinuumFit fails when fewer templates than required were fitted; it refuses a continuum whose best template amplitude over error is below the negative threshold at all redshifts unless the component is tplFitAuto; in the first pass it replaces the component by fromSpectrum (negative) or noContinuum (below the null threshold at all redshifts) with a warning, and leaves it unchanged without warning in every other case, in particular always in later passes.", "quantifier": "all grids, template fits, thresholds, components and passes", "why_tests_cant": "it depends on the whole grid and on the ranking of the templates at each redshift", "anchors": ["RedshiftLibrary/src/lib/operator/linemodel.cpp evaluateContinuumAmplitude", "RedshiftLibrary/src/lib/operator/linemodel.cpp PrecomputeContinuumFit"]}
{"id": "C111", "title": "Continua fitted again are the best ones of the first pass", "statement": "With reFitFirstPass, the templates fitted for a candidate are exactly the required number of best templates stored by the first pass at the greatest redshift of its grid not above the candidate, with the extinction indices stored there; an unknown candidate or one below the grid is an error.", "quantifier": "all first pass grids and fits, all candidates, all catalogues holding the templates", "why_tests_cant": "needs the ranking and the lookup on arbitrary grids", "anchors": ["RedshiftLibrary/src/lib/operator/linemodel.cpp getContinuumInfoFromFirstpassFitStore", "RedshiftLibrary/src/lib/operator/linemodel.cpp fitContinuumTemplates"]}
{"id": "C112", "title": "Each second pass candidate uses its own continuum", "statement": "With retryAll or reFitFirstPass the second pass computes one continuum store per candidate, never stopping early, and the continuum of rank k used at a redshift of the window of a candidate is the fit of rank k of this candidate at this redshift; with fromFirstPass it is the continuum of the first pass candidate at every redshift; any other option is refused; without template continuum nothing is computed.", "quantifier": "all candidates, windows, redshifts, ranks and options", "why_tests_cant": "a wrong store would only show as slightly different merits", "anchors": ["RedshiftLibrary/src/lib/operator/linemodel.cpp ComputeSecondPass", "RedshiftLibrary/src/lib/operator/linemodel.cpp RecomputeAroundCandidates", "RedshiftLibrary/src/lib/operator/linemodel.cpp EstimateSecondPassParameters", "RedshiftLibrary/src/lib/linemodel/continuummanager.cpp LoadFitContinuum"]}
{"id": "C113", "title": "The template fitting operator fits the pass", "statement": "After any history of calls the template fitting operator is the FFT one exactly when the option of the current pass asks for it and there are at least 100 redshifts, with photometry exactly when asked and not FFT; it is reused exactly when its kind is unchanged; the lines are masked exactly when asked and not FFT.", "quantifier": "all sequences of passes and grids", "why_tests_cant": "the operator is reused across calls: its kind depends on the history", "anchors": ["RedshiftLibrary/src/lib/operator/linemodel.cpp makeTFOperator", "RedshiftLibrary/src/lib/operator/linemodel.cpp isfftprocessingActive"]}
{"id": "C114", "title": "Grid of the first pass", "statement": "The first pass grid starts at the begin of the redshift range and advances by the step kept by the solver, cut at the end of the range; the step is the fine step times the ratio when this gives at least ten redshifts, else the fine step, and then the range is shorter than nine coarse steps.", "quantifier": "all ranges, positive steps and ratios, linear and logarithmic sampling", "why_tests_cant": "boundary of the number of points for all real ranges", "anchors": ["RedshiftLibrary/src/lib/method/linemodelsolve.cpp createRedshiftGrid", "RedshiftLibrary/src/lib/method/objectSolve.cpp createRedshiftGrid"]}
{"id": "C115", "title": "Detection level of a sample", "statement": "For peak detection the level of each sample is the median plus a multiple of the median absolute deviation of the flux within half a window of its wavelength; detection is defined when the last sample has a neighbour within half a window, the flux of the last sample taking part in no level.", "quantifier": "every axis, flux, window and parameters", "why_tests_cant": "holds for every spectrum and sampling", "anchors": ["RedshiftLibrary/src/lib/operator/peakdetection.cpp FindPossiblePeaks"]}
{"id": "C116", "title": "Peaks are the maximal runs above the level", "statement": "The detected ranges are exactly the maximal runs of consecutive samples strictly above their level, in increasing order and disjoint, whether or not they touch the ends of the spectrum; this determines them.", "quantifier": "every strictly increasing axis, flux and parameters", "why_tests_cant": "completeness and maximality over all spectra", "anchors": ["RedshiftLibrary/src/lib/operator/peakdetection.cpp FindPossiblePeaks"]}
{"id": "C117", "title": "Peaks at the border", "statement": "Peaks are returned unchanged and in order except those whose highest sample is at the border of the spectrum; the operator gives no result exactly when there is no run above the level, and one fit range per peak kept.", "quantifier": "every list of peaks and spectrum", "why_tests_cant": "the list is edited while traversed: holds for every list of ranges", "anchors": ["RedshiftLibrary/src/lib/operator/peakdetection.cpp RedefineBorders, Compute"]}
{"id": "C118", "title": "Ranges for the fit of a peak", "statement": "The range used to fit a peak contains it, stays in the spectrum, starts no earlier than the last sample of the previous peak, stops before the first sample of the next one, and extends the peak by the given multiple of its width unless stopped by the end of the spectrum or a neighbour.", "quantifier": "every list of separate peaks, spectrum length and positive rate", "why_tests_cant": "all orders and distances of neighbouring peaks", "anchors": ["RedshiftLibrary/src/lib/operator/peakdetection.cpp GetNewBorder, enlarge"]}
{"id": "C119", "title": "Signal to noise of a peak", "statement": "The ratio of a range is the height of its first highest unmasked sample over the median of the unmasked samples around, never negative, divided by the noise of this window; a range that leaves the spectrum or has no unmasked sample is refused.", "quantifier": "every spectrum, range, mask and window", "why_tests_cant": "all masks, ties and windows at the borders", "anchors": ["RedshiftLibrary/src/lib/operator/linedetection.cpp ComputeFluxes"]}
{"id": "C120", "title": "First stage of line detection", "statement": "A peak gives a line exactly when its fit succeeds, no check refuses it and its ratio reaches the cut; lines come in the order of the peaks with the values of the fit and a force given by the ratio; the peaks to retest are those refused by the ratio alone; the statuses reported for a peak are exactly what holds of it, at least one per peak.", "quantifier": "every list of peaks, fit outcome and parameters", "why_tests_cant": "all combinations of checks over all lists", "anchors": ["RedshiftLibrary/src/lib/operator/linedetection.cpp Compute"]}
{"id": "C121", "title": "Weak lines near strong ones are retested", "statement": "Retesting only adds weak lines: each comes from a peak refused by its ratio, near a strong line, whose ratio without the strong lines exceeds the cut, and every such peak is added; the detection does not fail because of it and a peak gives at most one line.", "quantifier": "every catalogue of lines, list of peaks and spectrum", "why_tests_cant": "all numbers and positions of strong lines", "anchors": ["RedshiftLibrary/src/lib/operator/linedetection.cpp Retest, RetestPeaks, RemoveStrongFromSpectra"]}
{"id": "C122", "title": "Indices in the spectrum without strong lines", "statement": "The reduced spectrum consists of the samples outside the removed intervals, and the index given to a kept sample is that of this sample in the reduced spectrum.", "quantifier": "every axis and list of intervals", "why_tests_cant": "index arithmetic for all sets of intervals", "anchors": ["RedshiftLibrary/src/lib/operator/linedetection.cpp RemoveStrongFromSpectra"]}
{"id": "C123", "title": "Line matching", "statement": "Every solution is the set of detected lines compatible, within the tolerance, with the redshift of a pair of a detected and a catalogue line, each detected wavelength once and in increasing order, with at least the wanted number of lines and a mean redshift inside the range; no two are the same and every pair with such a solution is represented; nothing is returned exactly when there is none, whatever the sort.", "quantifier": "every detected and rest catalogue, tolerance, threshold and range", "why_tests_cant": "completeness over all pairs of lines", "anchors": ["RedshiftLibrary/src/lib/operator/linematching.cpp Compute, updateSolution, refineSolutions"]}
{"id": "C124", "title": "Best redshift of a line matching", "statement": "The best redshift is the mean of the first solution of at least two lines with the most strong lines, then the most lines, and there is none exactly when no solution has two lines; the best by number is the mean of the first largest solution; the selections by number and by index give the solutions they name.", "quantifier": "every list of solutions", "why_tests_cant": "first among equal, for all lists", "anchors": ["RedshiftLibrary/src/lib/operator/linematchingresult.cpp GetBestRedshift, GetBestMatchNumRedshift, GetSolutionsListOverNumber, GetMeanRedshiftSolutionByIndex"]}
{"id": "C125", "title": "Redshift candidates around the solutions", "statement": "The extended candidates are strictly increasing and consist exactly of the multiples of the step within half a width (upper end excluded) of the multiple nearest to the mean redshift of each selected solution.", "quantifier": "every list of solutions, positive step and width", "why_tests_cant": "membership for all real redshifts and overlapping windows", "anchors": ["RedshiftLibrary/src/lib/operator/linematchingresult.cpp GetRoundedRedshiftCandidatesOverNumber, GetExtendedRedshiftCandidatesOverNumber"]}
{"id": "C126", "title": "Rules on the solutions of line matching", "statement": "Filtering with rules keeps in order the solutions without objection and moves the others, in order and with the code of the objections (1, 10, 100), to the list of refused ones; a solution with one [OIII]b (Hbeta) line but not the [OIII]a (Halpha) line that would be in the wavelength range is refused.", "quantifier": "every list of solutions, catalogue, spectrum and range", "why_tests_cant": "all combinations of rules over all lists", "anchors": ["RedshiftLibrary/src/lib/operator/linematchingresult.cpp FilterWithRules", "RedshiftLibrary/src/lib/line/rules.cpp"]}
{"id": "C127", "title": "FFT correlation equals the direct sums", "statement": "When the template fitting on log-sampled grids correlates a spectrum with a longer template through FFTs, the result has one entry per possible shift, and entry k is exactly the sum over the spectrum samples of (spectrum sample i) * (template sample k+i): neither the zero padding nor the reversal, nor the circular wrap-around, nor the transform kept from an earlier call of the same kind within the same redshift range changes any sum.", "quantifier": "for all spectra, all templates at least as long, all buffer sizes that hold the template, all call kinds and all cached transforms left by earlier calls with the same spectrum", "why_tests_cant": "the wrap-around of a circular convolution only shows for particular combinations of lengths and padding; tests run a few sizes", "anchors": ["RedshiftLibrary/src/lib/operator/templatefittinglog.cpp: EstimateXtY, InitFFT, EstimateMtMFast"]}
{"id": "C128", "title": "Log-grid fit of a redshift range", "statement": "On a log-sampled spectrum and template, the fit of a range of redshifts by the FFT operator reports, for each redshift, the least squares fit of the template shifted to that redshift: for every dust and IGM configuration the stored chi2 is that of the best amplitude (non-significant amplitudes set to zero), the reported configuration is the first of smallest chi2, and the redshift is that of the shift within 5e-7 relative; a redshift list that does not match the shifts is refused.", "quantifier": "all spectra, templates, extinction curves, configuration lists, redshift lists", "why_tests_cant": "The equality of the FFT result with direct sums, and the order of shifts (reversed) and redshifts, hold for all sizes; tests sample a few spectra", "anchors": ["RedshiftLibrary/src/lib/operator/templatefittinglog.cpp:FitRangez"]}
{"id": "C129", "title": "Redshift ranges of constant IGM curves", "statement": "For the fit on log grids, the redshifts are cut in consecutive non-empty ranges which cover them all once; within a range all redshifts use the same IGM curves, unless no wavelength of the spectrum is below Lyman alpha.", "quantifier": "all increasing redshift lists, IGM redshift bins and spectra", "why_tests_cant": "Boundary cases (redshift equal to a bin bound, two bounds between consecutive redshifts) depend on the values of grids and bins", "anchors": ["RedshiftLibrary/src/lib/operator/templatefittinglog.cpp:FindZRanges"]}
{"id": "C130", "title": "Part of the template used for a redshift range", "statement": "On log grids of the same step, the part of the template used for a redshift range starts at the first wavelength of the spectrum at rest at the largest redshift and ends at the last wavelength at rest at the smallest redshift; it has exactly one shift per redshift, and a template that does not cover it is refused.", "quantifier": "all log grids, redshift ranges and logarithms exact within half a step", "why_tests_cant": "An index computed by rounding a ratio of logarithms; an off-by-one for some sizes is not visible in one test", "anchors": ["RedshiftLibrary/src/lib/operator/templatefittinglog.cpp:FindTplSpectralIndex"]}
{"id": "C131", "title": "Log-grid fit of all redshifts", "statement": "The fit on log grids returns one result per redshift, each that of C128 with the IGM curves of its range; with a prior on the amplitude the reported amplitude minimises chi2 plus prior, as in the direct operator, and the reported configuration is the best one.", "quantifier": "all spectra, templates, redshift lists, extinction configurations and priors", "why_tests_cant": "Assembly of ranges and priors over arbitrary grids; agreement of two implementations on all inputs", "anchors": ["RedshiftLibrary/src/lib/operator/templatefittinglog.cpp:FitAllz"]}
{"id": "C132", "title": "Sub-sampling of spectra and templates to the redshift step", "statement": "When the redshift grid of a log-lambda fit is coarser than the spectra, the operator accepts it only if the redshift log-step is the same whole multiple ss of the step of every spectrum; each fitted spectrum then holds exactly every ss-th sample counted back from the end of its clamped range, with errors divided by sqrt(ss), and the sub-sampled template still aligns exactly with every sub-sampled sample at every redshift. With fewer than two redshifts, or a step that is not such a multiple, it throws.", "quantifier": "every increasing redshift list (decreasing ones: counterexample), every list of log-sampled spectra, every template", "why_tests_cant": "the alignment must hold for every ratio, range and grid length", "anchors": ["RedshiftLibrary/src/lib/operator/templatefittinglog.cpp: CheckRedshifts, Compute", "RedshiftLibrary/src/lib/spectrum/spectralaxis.cpp: GetLogSamplingIntegerRatio, GetSubSamplingMask"]}
{"id": "C133", "title": "Range and templates used by the template combination", "statement": "When the templates of a combination are rebinned for a redshift, the wavelengths used for the fit are inside the requested range and inside the range of every template (moved to the rest frame), each template is rebinned on the rest-frame axis of the spectrum over that range, and a template that overlaps the spectrum less than the threshold refuses the fit. It is not required of the code that templates without a common wavelength are refused: a witness shows that the range is then left as it was.", "quantifier": "every spectrum axis, every list of templates, every redshift, range and threshold, every rebinning function", "why_tests_cant": "the range is the result of a fold over the templates: a test takes a few templates, mostly all with the same axis", "anchors": ["RedshiftLibrary/src/lib/operator/tplcombination.cpp: COperatorTplcombination::RebinTemplate, Compute", "RedshiftLibrary/src/lib/spectrum/spectralaxis.cpp: IntersectMaskAndComputeOverlapFraction"]}
{"id": "C134", "title": "The template combination fit is the best combination", "statement": "For every dust and IGM configuration the chi2 recorded for it is the smallest value, over all the tuples of amplitudes, of the sum over the samples of the range of ((flux - combination of the extincted templates) / error)^2; the reported chi2 is the smallest of these, with the dust coefficient and IGM index of a configuration that reaches it, and IGM configurations which do not touch the range are all given the same value.", "quantifier": "every spectrum with positive errors, every list of templates, every list of dust and IGM indices, every redshift >= 0, and every solver that returns a weighted least squares solution", "why_tests_cant": "a minimum over all real amplitude tuples and over all configurations cannot be enumerated by a test", "anchors": ["RedshiftLibrary/src/lib/operator/tplcombination.cpp: COperatorTplcombination::BasicFit, BasicFit_preallocateBuffers"]}
{"id": "C135", "title": "Amplitudes reported by the template combination", "statement": "The amplitudes reported with the best chi2 are amplitudes which reach the chi2 of a configuration: proved for the last configuration which was fitted, which is the best one when only one configuration is tried. A witness shows that with two configurations the reported amplitudes need not be those of the reported dust coefficient.", "quantifier": "every spectrum, list of templates and list of configurations", "why_tests_cant": "the amplitudes depend on the order of the configurations: a test with one configuration cannot see it", "anchors": ["RedshiftLibrary/src/lib/operator/tplcombination.cpp: COperatorTplcombination::BasicFit"]}
{"id": "C136", "title": "Units of the template combination fit", "statement": "When the flux and the errors of the spectrum are multiplied by a positive number, the chi2 of every configuration, the best configuration, the SNR and the significance do not change, and the amplitudes and their errors are multiplied by that number. The reported covariance is the one of the normalised amplitudes: the error of an amplitude is the normalisation times the square root of its diagonal element.", "quantifier": "every spectrum, every positive factor, every list of templates and configurations, every solver", "why_tests_cant": "an equality for every factor and spectrum", "anchors": ["RedshiftLibrary/src/lib/operator/tplcombination.cpp: COperatorTplcombination::BasicFit"]}
{"id": "C137", "title": "Template combination with one template, and masks", "statement": "A combination of one template never gives a result, since the element (0,1) of the covariance matrix is read. The masks given with the redshifts are only checked for their size: two masks of the same size give the same result.", "quantifier": "every spectrum, every template, every pair of masks", "why_tests_cant": "every input with one template; every pair of masks", "anchors": ["RedshiftLibrary/src/lib/operator/tplcombination.cpp: COperatorTplcombination::BasicFit"]}
{"id": "C138", "title": "Results of the template combination over the redshifts", "statement": "The results are given in increasing order of redshift, one per redshift of the request, each being the fit at that redshift with the mask of that redshift; with no mask the result does not depend on the order of the requested redshifts. The likelihood constant is -n/2 log(2 pi) minus the sum of the logarithms of the errors over the samples of the range. A dust or IGM fit without the corresponding curves, and a list of masks of another size than the redshifts, are refused.", "quantifier": "every list of redshifts, list of masks, spectrum, list of templates", "why_tests_cant": "every permutation and every size of the list of redshifts", "anchors": ["RedshiftLibrary/src/lib/operator/tplcombination.cpp: COperatorTplcombination::Compute, EstimateLikelihoodCstLog"]}
{"id": "C139", "title": "Model of the template combination", "statement": "The flux of the model at a sample is the sum over the templates of amplitude times rebinned template times dust and IGM extinction at the rest-frame wavelength of the sample, and with one configuration the chi2 reported by the fit is the one of the model computed with the reported amplitudes, dust coefficient and IGM index. The wavelengths of the model are not those of the spectrum: a theorem shows that they are those of the spectrum times (1+z).", "quantifier": "every spectrum, list of templates, redshift, dust coefficient, IGM index and amplitudes", "why_tests_cant": "an agreement of two functions for every input", "anchors": ["RedshiftLibrary/src/lib/operator/tplcombination.cpp: COperatorTplcombination::ComputeSpectrumModel"]}
{"id": "C140", "title": "Candidates of the redshift PDF", "statement": "When a PDF has been combined, the candidates are exactly the peaks found in each window (the whole grid in the first pass, the range of each parent candidate in the second), each with its own identifier and its parent; the operator then ends without error and reports at least one and at most the requested number of candidates, with ranks 0, 1, ..., integrated probabilities in decreasing order between 0 and the integral of the PDF, the first one positive, each redshift being a point of the grid inside the window of its parent. Inconsistent windows or grids are refused, and it is an error when no window has a peak.", "quantifier": "every set of merits, combination method, set of parent identifiers and windows, prefix, number of candidates, and every order given by the sorts to equal values", "why_tests_cant": "identifiers are concatenations of names and numbers: that none overwrites another must hold for every name; the rest ranges over all PDFs", "anchors": ["RedshiftLibrary/src/lib/operator/pdfz.cpp: COperatorPdfz::Compute, searchMaxPDFcandidates, createPdfResult", "RedshiftLibrary/src/lib/statistics/pdfcandidatesz.cpp: CPdfCandidatesZ::Compute"]}
{"id": "C141", "title": "Runs of the template solvers over the components", "statement": "When template fitting (or template combination) over one or all spectrum components ends without error, the component selected on every spectrum and on every template is the one it was before, each requested component was fitted with that component selected on all spectra and on the template, its result is stored under the name of that component (and of the template), and no other stored result has changed. An unknown component or an empty template list is refused before anything is changed. Two parts are false, with theorems: after an exception (or no result) the components are not put back, and with all components the continuum is fitted without dust although dust was asked for.", "quantifier": "every operator (any result or error for any components), initial components, list of templates, store", "why_tests_cant": "every sequence of operator results, including errors at each turn", "anchors": ["RedshiftLibrary/src/lib/method/templatefittingsolve.cpp: CTemplateFittingSolve::Solve, compute", "RedshiftLibrary/src/lib/method/tplcombinationsolve.cpp: CTplCombinationSolve::Solve, compute"]}
{"id": "C142", "title": "Spectrum components accepted by the solvers", "statement": "A solver accepts exactly its four component names and refuses all other strings. That all the values allowed by the parameter schema are accepted is false of template fitting: noContinuum is refused.", "quantifier": "every string", "why_tests_cant": "a test tries a few names", "anchors": ["RedshiftLibrary/src/lib/method/templatefittingsolve.cpp: CTemplateFittingSolve::compute", "RedshiftLibrary/src/lib/method/tplcombinationsolve.cpp: CTplCombinationSolve::compute"]}
{"id": "C143", "title": "Merits given to the PDF by the template solvers", "statement": "The array given to the PDF operator has the redshift grid of the fits, one row of merits and one null-information prior per template, dust coefficient and IGM curve, in that order, each row holding the merits of its configuration at all redshifts and nothing else, and the likelihood constant of the fits; fits with different constants are refused. The PDF of equal priors is then determined by these rows. That fits with different constants are always refused is false when the first constant is -1 (the mark of no constant), which is proved.", "quantifier": "every set of results and tables", "why_tests_cant": "every number of templates, configurations and redshifts", "anchors": ["RedshiftLibrary/src/lib/method/templatefittingsolve.cpp: CTemplateFittingSolve::BuildChisquareArray", "RedshiftLibrary/src/lib/method/tplcombinationsolve.cpp: CTplCombinationSolve::BuildChisquareArray"]}
{"id": "C144", "title": "Parameters reported with the candidates of the template solvers", "statement": "Each candidate gets the parameters of the template with the smallest chi2 at its redshift (the first one in case of equality), all of them read in the same fit at the same redshift; the reported merit is the smallest of all the merits given to the PDF at this redshift; every candidate that the PDF operator finds from these merits gets its parameters. When no template has a chi2 below the largest number, a null result is read (undefined behaviour), and also for a candidate out of the grid: both are theorems.", "quantifier": "every set of results, every list of candidates", "why_tests_cant": "every grid, number of templates and ties", "anchors": ["RedshiftLibrary/src/lib/method/templatefittingsolve.cpp: CTemplateFittingSolve::buildExtremaResults", "RedshiftLibrary/src/lib/method/tplcombinationsolve.cpp: CTplCombinationSolve::buildExtremaResults"]}
{"id": "C145", "title": "Axes of the templates to combine", "statement": "A combination is accepted exactly when there is at least one template and all have as many samples as the first one and wavelengths within 1e-8 of those of the first one. Two accepted templates need not be within 1e-8 of each other.", "quantifier": "every list of spectral axes", "why_tests_cant": "every size and every sample", "anchors": ["RedshiftLibrary/src/lib/method/tplcombinationsolve.cpp: CTplCombinationSolve::checkTemplates"]}
{"id": "C146", "title": "Result of the fit of a template on the redshift grid", "statement": "The result has the requested redshifts and at each of them all the values of the fit at that redshift and of no other; an error at one redshift is an error of the whole, without partial result. The signal to noise ratio is undefined when the template has no signal, otherwise null or positive, positive exactly when the data correlate with the template, and its square is dtm*dtm/mtm.", "quantifier": "every grid, every fit function", "why_tests_cant": "every grid and every position of an error", "anchors": ["RedshiftLibrary/src/lib/operator/templatefitting.cpp: COperatorTemplateFitting::Compute", "RedshiftLibrary/src/lib/operator/templatefittingresult.cpp: CTemplateFittingResult::set_at_redshift, SNRCalculation"]}
{"id": "C147", "title": "The vector of the non-linear line fit has one place per parameter", "statement": "For a non-linear fit (LBFGS-B) of a group of line elements, the vector given to the minimiser has one place per amplitude, one velocity per type of element present, one wavelength offset and three polynomial coefficients when they are fitted, and every place has a lower bound, an upper bound and an initial guess.", "quantifier": "every group of elements, every order of types, every combination of the three options", "why_tests_cant": "the number of places depends on the order of the types in the group; tests use groups of one type", "anchors": ["RedshiftLibrary/src/lib/linemodel/gaussianfit/lbfgsbfitter.cpp: CLbfgsbFitter::fitAmplitudesLinSolvePositive"]}
{"id": "C148", "title": "The cost of the non-linear line fit is the chi2 in spectrum units, a function of the point", "statement": "The value returned to the minimiser at a point is the chi2 of the continuum-subtracted spectrum against the model of the group with these amplitudes, velocities, offset and polynomial, whatever the internal normalisation of the flux, and it depends only on the point, not on the points evaluated before.", "quantifier": "every group, spectrum, point and history of evaluations", "why_tests_cant": "the lines in range are state kept between evaluations; a test evaluates one point", "anchors": ["RedshiftLibrary/src/lib/linemodel/gaussianfit/lbfgsbfitter.cpp: CLeastSquare::operator(), unpack, ComputeLeastSquare"]}
{"id": "C149", "title": "The non-linear line fit stores the final point, within the configured bounds", "statement": "After the fit the velocities are within the configured ranges, the offsets are the catalogue offsets multiplied by one common factor within the configured range, the polynomial has the fitted values, amplitudes are not negative, the elements out of the group are untouched, and the result does not depend on the path of the minimiser; with too few samples the amplitudes are null; empty groups and supports are refused; a low signal to noise ratio keeps the linear fit.", "quantifier": "every minimiser (any evaluated points and any returned point within the bounds), every group and options", "why_tests_cant": "any path of the optimiser", "anchors": ["RedshiftLibrary/src/lib/linemodel/gaussianfit/lbfgsbfitter.cpp: CLbfgsbFitter::fitAmplitudesLinSolvePositive"]}
{"id": "C150", "title": "The non-linear line fit can reach every allowed absorption amplitude and nothing else", "statement": "The amplitudes of absorption that the minimiser may propose are those whose lines are below the configured limit, in the units of the model; what is stored is what was fitted.", "quantifier": "every spectrum (every flux scale), every absorption element with a limit", "why_tests_cant": "the bound is compared with a normalised amplitude: it depends on the scale of the flux", "anchors": ["RedshiftLibrary/src/lib/linemodel/gaussianfit/lbfgsbfitter.cpp: fitAmplitudesLinSolvePositive bounds", "RedshiftLibrary/RedshiftLibrary/linemodel/elementparam.h: setFittedAmplitude"]}
{"id": "C151", "title": "Every element in range gets an uncertainty from the non-linear line fit", "statement": "After the non-linear fit every line in the range of every element in the range has the uncertainty of the amplitude of its element; elements and lines out of the range have none.", "quantifier": "every group of elements, every set of elements out of the range", "why_tests_cant": "depends on which elements are out of range and their order", "anchors": ["RedshiftLibrary/src/lib/linemodel/gaussianfit/lbfgsbfitter.cpp: fitAmplitudesLinSolvePositive uncertainties"]}
{"id": "C152", "title": "Search of the line matching method", "statement": "Without the dynamic mode the line matching method detects lines exactly once with the configured parameters, publishes the lines and their matching (if any) and ends. With it, it detects lines with a finite sweep of parameters (width, then cut, strong cut, window size), ends only with a published matching which has a redshift and either at least 200 lines or after the whole sweep, reuses after the sweep the parameters which gave the most lines, fails only if a detection fails or the number of lines falls while only the minimum width decreases; the limit of 100 tries has no effect, so that without a match the search never ends.", "quantifier": "all configured parameters, all detection, counting and matching functions, any number of iterations", "why_tests_cant": "the sweep, its order and its end, and non termination, are statements about unboundedly many iterations and all detectors", "anchors": ["RedshiftLibrary/src/lib/method/linematchingsolve.cpp: CLineMatchingSolve::compute"]}
{"id": "C153", "title": "Derivatives of the Gaussian fit", "statement": "The residuals given to the solver of the Gaussian fit are the line model (Gaussian plus polynomial of the distance to its centre) minus the flux, and the Jacobian matrix given to it contains exactly the partial derivatives of those residuals with respect to every parameter, at every point with a non-null width.", "quantifier": "all real parameters with a non-null width, all wavelengths and fluxes, any order of the polynomial", "why_tests_cant": "a derivative is a limit over all neighbouring points; tests compare finite differences at a few points", "anchors": ["RedshiftLibrary/src/lib/gaussianfit/gaussianfit.cpp: CGaussianFit::GaussF, GaussDF"]}
{"id": "C154", "title": "First guess and result of the Gaussian fit", "statement": "A Gaussian fit refuses exactly the ranges with fewer samples than parameters; otherwise it starts, without reading outside of the range, from a sample of largest flux, its height above the median and a positive width; the returned width is the standard deviation of the fitted Gaussian and is not negative, the errors are the square roots of the variances scaled by the reduced residual when above 1 (not finite without degrees of freedom); the status is a success whatever the solver reports.", "quantifier": "all axes, ranges, solvers and solver outcomes", "why_tests_cant": "in-bounds reads, the median bound and the status must hold for every spectrum and solver outcome", "anchors": ["RedshiftLibrary/src/lib/gaussianfit/gaussianfit.cpp: CGaussianFit::Compute, ComputeFirstGuess, getReturnCode"]}
{"id": "C155", "title": "Redshift grids of the solvers", "statement": "The line measurement is made on a grid which contains exactly the reference redshift in its middle, with a constant step (in redshift, or in log(1+z) with the log sampling) and covering the requested half width by less than one step in excess. The other solvers use the range and step of the log rebinning when their category has one, then refusing a linear sampling, otherwise the configured ones; the first pass of the line model uses the coarse grid when it has at least ten redshifts and the fine one otherwise.", "quantifier": "all reference redshifts, half widths, steps above 1e-8, samplings, ranges and ratios", "why_tests_cant": "membership of the reference redshift and the number of points must hold for every width and step (ceil and clipping corner cases)", "anchors": ["RedshiftLibrary/src/lib/method/objectSolve.cpp: CObjectSolve::InitRanges, GetRedshiftSampling", "RedshiftLibrary/src/lib/method/linemeassolve.cpp: CLineMeasSolve::GetRedshiftSampling", "RedshiftLibrary/src/lib/method/linemodelsolve.cpp: CLineModelSolve::createRedshiftGrid"]}
{"id": "C156", "title": "Lines and continuum fitted together", "statement": "The joint fit of the lines and of the continuum of a spectrum finds the amplitudes of the lines, the amplitude of the template and the coefficients of the polynomial that minimise the chi-square over the samples of the lambda range, sets them in the elements and in the stored continuum with their errors, and the model left by the fit (continuum plus lines) is the fitted one. It refuses a fit without valid element, or with fewer samples than parameters.", "quantifier": "every spectrum, template, list of emission or absorption elements, lambda range and polynomial order, every exact linear solver", "why_tests_cant": "the minimum ranges over all amplitudes and coefficients; the consistency of the stored model with the fit holds or not for every spectrum", "anchors": ["RedshiftLibrary/src/lib/linemodel/svdlcfitter.cpp: CSvdlcFitter::doFit, fitAmplitudesLinesAndContinuumLinSolve, fillMatrix", "RedshiftLibrary/src/lib/linemodel/continuummanager.cpp: reinterpolateContinuumResetAmp, setFitContinuumFromFittedAmps"]}
{"id": "C157", "title": "Derivatives of the model of a line element", "statement": "The values an element gives for the derivatives of its model flux with respect to its amplitude, its velocity and the scale of the continuum are the exact derivatives of the flux it gives, for the three kinds of line width and the four line profiles; for a line with a negative amplitude, which the flux leaves out, the derivative with respect to the continuum is not.", "quantifier": "all elements, wavelengths, redshifts, amplitudes, velocities and profiles", "why_tests_cant": "a derivative is a statement on all the points around the current one; tests compare a few finite differences", "anchors": ["RedshiftLibrary/src/lib/linemodel/element.cpp: getModelAtLambda, GetModelDerivAmplitudeAtLambda, GetModelDerivVelAtLambda, GetModelDerivContinuumAmpAtLambda", "RedshiftLibrary/src/lib/linemodel/elementparam.cpp: GetLineProfileDerivVel"]}
{"id": "C158", "title": "Position, width and redshift derivative of a line element", "statement": "The position of an element is the mean of those of its lines in the range, and an error without such a line; its width is the quadratic sum of the instrumental and velocity widths its type keeps, and a position out of the range of the LSF is refused. What it gives for the derivative of its flux with respect to the redshift is the derivative when the width does not depend on the redshift; when it is made of the velocity it is not.", "quantifier": "all elements, redshifts, lines in or out of the range, LSF", "why_tests_cant": "same as C157", "anchors": ["RedshiftLibrary/src/lib/linemodel/element.cpp: GetLineWidth, GetObservedPosition, getObservedPositionAndLineWidth, GetModelDerivZAtLambda, GetElementAmplitude, GetElementError"]}
{"id": "C159", "title": "Direct integration flux", "statement": "For a list of lines whose observed position and width are available in a spectrum, the flux by direct integration is the trapezium integral of the observed flux minus the continuum (and minus the amplitude offset polynomials of the elements if they are enabled) over the samples of the 6 sigma windows of the lines; windows that meet are joined so that no integration step is counted twice; the returned error is the sum of the squared errors of the steps. The option to subtract the absorption lines model does not change the flux of an emission line in range (it never subtracts an absorption line).", "quantifier": "all increasing spectral axes of two samples or more, all spectra, continua and errors, all sets of elements with prepared supports, all non-empty lists of lines, both values of the option", "why_tests_cant": "the overlap of the windows, of the supports and of the wavelength range has unbounded configurations; tests check a couple of lines", "anchors": ["RedshiftLibrary/src/lib/linemodel/spectrummodel.cpp:getFluxDirectIntegration", "RedshiftLibrary/src/lib/linemodel/spectrummodel.cpp:getContinuumUnderLines", "RedshiftLibrary/src/lib/linemodel/elementlist.cpp:getlambdaIndexesUnderLines"]}
{"id": "C160", "title": "Direct integration over several spectra", "statement": "The direct integration flux of the observation is the sum over its spectra and its SNR the absolute flux over the square root of the summed squared errors; the reported uncertainty is that square root (NaN for a null flux, a deviation); all are NaN exactly when no window holds two consecutive samples; a line refused by the LSF of one of the spectra makes the integration throw (a deviation: the spectra where the line is out of range are not skipped).", "quantifier": "all numbers of spectra, all spectra with positive errors, all lists of lines", "why_tests_cant": "the number of spectra and the windows are unbounded; the NaN cases are not covered by tests", "anchors": ["RedshiftLibrary/src/lib/linemodel/linemodelfitting.cpp:getFluxDirectIntegration", "RedshiftLibrary/src/lib/linemodel/linemodelfitting.cpp:GetModelSolution"]}
{"id": "C161", "title": "Solution extracted from a line fit", "statement": "For every line of the catalogue, in order, the solution holds: nothing (NaN, out of range) if no element holds the line; only its element if it is out of range; otherwise the amplitude, error, offset, velocity, group and position of the line, |amplitude|/error with the rules, and (full extraction) the continuum, the residual, the flux = amplitude x flux of the unit line for an emission line, minus amplitude x max(0,continuum) x flux of the unit line for an absorption line, its error and the direct integration. A NaN or negative amplitude gives no flux. Emission fluxes are never negative, absorption fluxes never positive. The H-alpha complex (3 lines) and the OII doublet (2 lines) are reported only when that many lines are in range, from the first ones, summing the positive fluxes and variances. A line is valid exactly when it is in range with a positive amplitude; asking it of an empty solution is an error.", "quantifier": "all elements and states, catalogues, views of the spectra, options", "why_tests_cant": "combination of NaN amplitudes, missing lines, range flags and options over any list of lines", "anchors": ["RedshiftLibrary/src/lib/linemodel/linemodelfitting.cpp: GetModelSolution, getFluxDirectIntegration", "RedshiftLibrary/src/lib/linemodel/linemodelsolution.cpp: CLineModelSolution, isLineValid"]}
{"id": "C162", "title": "Loading a solution restores the model", "statement": "Loading a solution extracted from fitted elements into elements of the same lines, in any state, gives each line in range the amplitude, error and offset it had and each element with a line in range its velocity, group and polynomial; everything else is reset to unset values. Extracting again gives the same solution.", "quantifier": "all solutions, all states of the elements before loading", "why_tests_cant": "round trip over any state, any lists of lines and elements, any flags", "anchors": ["RedshiftLibrary/src/lib/linemodel/linemodelfitting.cpp: LoadModelSolution, GetModelSolution", "RedshiftLibrary/src/lib/linemodel/element.cpp: resetFittingParams"]}
{"id": "C163", "title": "Profiles of a line model fit at one redshift", "statement": "When a line model is prepared and fitted at a redshift, symmetric and Lorentzian lines keep their profile; Lyman alpha gets the asymmetric profile of the catalogue of the fit, fixed or free according to the pass and the options, with the parameters of the catalogue if fixed, those found by the search if free and in range, and (2,0,0) if free and out of range; every line under the IGM gets the index of the fitted continuum and the redshift, or, without a fitted continuum, the index found if its element has such a line in range and none otherwise; the result does not depend on the fits made before if the catalogues give Lyman alpha an asymmetric profile, and a catalogue without the line is refused.", "quantifier": "all line models, catalogues, options, passes, continuum fits, range flags, search outcomes and histories of fits", "why_tests_cant": "the profiles live in the elements shared by all redshifts, templates and passes: only a statement over all histories shows that nothing leaks from one fit to the next", "anchors": ["RedshiftLibrary/src/lib/linemodel/lineratiomanager.cpp: setLyaProfile, setAsymProfile, setSymIgmProfile, init, setPassMode", "RedshiftLibrary/src/lib/linemodel/abstractfitter.cpp: initFit, fitLyaProfile", "RedshiftLibrary/src/lib/linemodel/elementparam.cpp: TLineModelElementParam"]}
{"id": "C164", "title": "Samples outside of the lines", "statement": "The mask of the samples outside of the lines has one value by sample of the spectrum, 0 exactly on the samples of the window of a line seen (of an element not disabled) at the redshift and 1 elsewhere, whatever redshift was prepared before; the deviations outside of the lines are the root mean squares of the continuum-subtracted flux and of the errors over the unmasked samples of the range (its end and the last sample of the spectrum excepted); a candidate is refused exactly when no such sample is left, and the warning on the noise is raised exactly when the ratio of the deviations is out of [2/3, 3/2].", "quantifier": "all spectra, wavelength ranges, line models, redshifts, disabled elements and histories of supports", "why_tests_cant": "the mask depends on the windows of all the lines at each redshift, and the refusal on the exact set of samples left", "anchors": ["RedshiftLibrary/src/lib/linemodel/outsideLineMaskBuilder.cpp: COutsideLineMaskBuilder::getMask", "RedshiftLibrary/src/lib/linemodel/linemodelfitting.cpp: getOutsideLinesMask, getOutsideLinesSTD", "RedshiftLibrary/src/lib/linemodel/linemodelextremaresult.cpp: TLineModelResult::updateFromModel"]}
{"id": "C165", "title": "Strong lines and strongest line flags", "statement": "The strong-line flags of a model and of its solutions mean what their names say: a model has a strong emission line exactly when an enabled, in-range element has a strong emission line of positive amplitude; Halpha is reported strongest exactly when the first of the greatest amplitudes among in-range emission lines is positive and is Halpha's; the number of lines over the cuts is the number of distinct elements having a strong emission line with positive noise and both ratios over the cuts; the scale correction is the sum of the logs of the positive norms of in-range elements; the extreme merits are a least and a greatest of the values.", "quantifier": "all element lists, disabled sets, amplitudes (NaN included), solutions, catalogues with the used identifiers, cuts", "why_tests_cant": "Ties, NaN amplitudes and elements with several lines make many orders to check; tests see a few.", "anchors": ["RedshiftLibrary/src/lib/linemodel/elementlist.cpp:GetModelStrongEmissionLinePresent", "RedshiftLibrary/src/lib/linemodel/elementlist.cpp:GetModelHaStrongest", "RedshiftLibrary/src/lib/linemodel/elementlist.cpp:getScaleMargCorrection", "RedshiftLibrary/src/lib/operator/linemodelresult.cpp:getNLinesOverCutThreshold", "RedshiftLibrary/src/lib/operator/linemodelresult.cpp:getStrongLinesPresence", "RedshiftLibrary/src/lib/operator/linemodelresult.cpp:getStrongestLineIsHa"]}
{"id": "C166", "title": "Template on the axis of the spectrum and model spectrum", "statement": "A template is put on the rest-frame axis of the spectrum exactly over the rest wavelengths that are in the range of wavelengths, on the spectrum and on the template; there it is the linear interpolation of the template, and no extrapolated or null sample enters the fit; the overlap reported is the fraction of the samples of the range that are kept, and it is positive and at least the threshold. The model spectrum of a candidate is on the axis of the spectrum and is amplitude x interpolated template x asked dust x asked IGM coefficient on that range, and null where the template does not reach.", "quantifier": "all templates and spectra with increasing axes, ranges, redshifts over -1, thresholds, extinction curves and indices, amplitudes", "why_tests_cant": "an identity at every sample for every geometry of the two axes and the range", "anchors": ["RedshiftLibrary/src/lib/operator/templatefittingBase.cpp:RebinTemplate", "RedshiftLibrary/src/lib/operator/templatefittingBase.cpp:ComputeSpectrumModel"]}
{"id": "C167", "title": "Template fit over the redshifts", "statement": "For every template, list of observations, list of redshifts and priors for which the fit of a template returns, there is one row for each redshift, in the order of the redshifts; each row is the best least squares fit, over the asked dust and IGM configurations, of the template interpolated at the rest wavelengths that are in the range of wavelengths, on the spectrum and on the template, with the priors of that redshift; it does not depend on the other redshifts. Every reported overlap is positive and at least the threshold: one redshift below it makes the whole call fail. Dust without its curves, an index of dust out of range, IGM without its curves and priors whose number differs from that of the redshifts are refused.", "quantifier": "all templates, observations, options, priors and lists of redshifts for which the call returns", "why_tests_cant": "A test fits one template on a small grid; the property is about every redshift of every grid and the state left by the earlier ones", "anchors": ["RedshiftLibrary/src/lib/operator/templatefitting.cpp:COperatorTemplateFitting::Compute", "RedshiftLibrary/src/lib/operator/templatefitting.cpp:COperatorTemplateFitting::BasicFit", "RedshiftLibrary/src/lib/operator/templatefittingresult.cpp:CTemplateFittingResult::set_at_redshift", "RedshiftLibrary/src/lib/operator/templatefittingBase.cpp:EstimateLikelihoodCstLog"]}
{"id": "C168", "title": "Continuum indexes", "statement": "For every spectrum with increasing wavelengths and non null errors and every redshift above -1, the continuum indexes are six; the mean flux in a range of wavelengths inside the spectrum is the weighted mean of exactly its samples, with the weighted deviation; the colour is -2.5 log10 of the ratio of the mean fluxes (-6 when the denominator is not positive, NaN when a range is not in the spectrum or the numerator is not positive), the break compares the second mean to the weighted linear regression of the first range at the middle of the second. The relevance is the two deviations over all the samples. The difference of two fluxes is their root mean square difference.", "quantifier": "all spectra, redshifts and ranges", "why_tests_cant": "A test has one spectrum and one redshift; the property is about every position of the ranges with respect to the samples", "anchors": ["RedshiftLibrary/src/lib/continuum/indexes.cpp:CContinuumIndexes::getIndexes", "RedshiftLibrary/src/lib/continuum/indexes.cpp:CContinuumIndexes::getRelevance", "RedshiftLibrary/src/lib/spectrum/spectrum.cpp:CSpectrum::GetMeanAndStdFluxInRange", "RedshiftLibrary/src/lib/spectrum/spectrum.cpp:CSpectrum::GetLinearRegInRange", "RedshiftLibrary/src/lib/spectrum/fluxaxis.cpp:CSpectrumFluxAxis::ComputeMeanAndSDev", "RedshiftLibrary/src/lib/spectrum/fluxaxis.cpp:CSpectrumFluxAxis::ComputeRMSDiff"]}
{"id": "C169", "title": "Template fit with photometry at one redshift", "statement": "A fit with photometry is refused for several spectra and when a band has no transmission or no photometric point. The template is resampled on a band exactly when its range covers the whole band brought to rest; otherwise the fit fails. When the fit returns, the result for each dust coefficient is the least squares fit of the unmasked samples of the spectrum in the common range together with one sample per band, whose model is the flux of the redshifted, extinguished template integrated through the transmission of the band and whose error is divided by the photometry weight; the photometric chi2 is the part of the bands; the IGM is applied exactly when asked for and some rest wavelength of the fit or of a band is at most 1216; the first result of smallest chi2 is kept.", "quantifier": "any template, spectrum, set of bands and photometric points, weight, redshift above -1, extinction curves, list of dust coefficients, priors and history of earlier fits", "why_tests_cant": "the statement quantifies over all templates, bands and weights, and the bands and the spectrum go through different code with shared extinction state", "anchors": ["RedshiftLibrary/src/lib/operator/templatefittingwithphot.cpp: RebinTemplateOnPhotBand, InitIsmIgmConfig, igmIsInRange, ApplyMeiksinCoeff, ApplyDustCoeff, ComputeCrossProducts, ComputeAmplitudeAndChi2", "RedshiftLibrary/src/lib/operator/templatefitting.cpp: BasicFit"]}
{"id": "C170", "title": "Strong lines above a signal-to-noise ratio", "statement": "Whenever the search of the strong lines above a signal-to-noise ratio returns, Ha, OIIIa, Hb and Lya are reported exactly when the first line of that name is an emission line, belongs to an element, is in range and its directly integrated flux exceeds the ratio times its error; OII and CIII are reported exactly when their first line alone or the usable lines of the doublet integrated together exceed it; no other name is reported, and the search returns whenever positions and fluxes of usable lines are defined.", "quantifier": "every line list, element list, flux and ratio", "why_tests_cant": "the report depends on the interplay of eight searches that share two accumulating doublet lists; samples cannot show that no line is lost or reported twice", "anchors": ["RedshiftLibrary/src/lib/linemodel/spectrummodel.cpp:getLinesAboveSNR", "RedshiftLibrary/src/lib/linemodel/elementlist.cpp:findElementIndex"]}
{"id": "C171", "title": "Datasets of the candidates of a stored result", "statement": "For a stored result of candidates, a dataset is announced exactly when it is one of the datasets of that kind of result, the object returned for a rank is the one stored for it by the getter of its type (null when it was not set), every object of a dataset has the announced type, the getter of another type never returns it, any other dataset name is refused with UNKNOWN_ATTRIBUTE, the number of candidates is the number of ranks that can be read, and the first-pass counterpart can be read for the parameters only.", "quantifier": "every store, path, result, dataset name and rank", "why_tests_cant": "the output writer discovers datasets through these calls for any combination of result kinds and names; tests cover a handful of names", "anchors": ["RedshiftLibrary/src/lib/processflow/resultstore.cpp:HasCandidateDataset", "RedshiftLibrary/src/lib/processflow/resultstore.cpp:GetCandidateResultType", "RedshiftLibrary/src/lib/operator/extremaresult.cpp:getCandidate", "RedshiftLibrary/src/lib/linemodel/linemodelextremaresult.cpp:getCandidate", "RedshiftLibrary/src/lib/operator/tplCombinationExtremaResult.cpp:getCandidate"]}
{"id": "C172", "title": "A masked copy of a template behaves as the template on the kept samples", "statement": "Copying a template with a mask of its size gives a template holding exactly the kept samples, with their current fluxes, their fluxes without extinction and the extinction indices; applying a dust or an IGM index, scaling or disabling the extinctions then gives on the copy the kept samples of what it gives on the original, whatever happened to the original before; a copy configured again follows its own indices. A mask of another size is refused.", "quantifier": "every strictly increasing axis, every history of calls on the original, every mask, every later call", "why_tests_cant": "the copy recomputes the range of the extinctions on the masked axis and copies some members and not others; the effect appears only for a particular order of configuration, copy and index changes", "anchors": ["RedshiftLibrary/src/lib/spectrum/template/template.cpp:CTemplate(const CTemplate &, const TFloat64List &)", "RedshiftLibrary/src/lib/spectrum/axis.cpp:maskVector"]}
{"id": "C173", "title": "Each object gets its own inputs", "statement": "Whatever objects were processed before with the same context, once an object is accepted it has exactly one wavelength range, one clamped range and one validated spectrum for each of its observations, in their order; the range is lambdaRange for a single observation and lambdaRange.<name> of the observation when there are several, and the clamped range and the validation use it. An object whose ranges, observations and line spread functions are good is accepted. Initialising an accepted context again without resetting it is undefined.", "quantifier": "every list of observations, parameters, template catalogue, IGM object and earlier content of the context", "why_tests_cant": "the state left by earlier objects is unbounded; a test processes a few objects", "anchors": ["RedshiftLibrary/src/lib/processflow/inputcontext.cpp:CInputContext::Init", "RedshiftLibrary/src/lib/processflow/inputcontext.cpp:CInputContext::resetSpectrumSpecific", "pylibamazed/python/pylibamazed/ProcessFlow.py:ProcessFlow.initialize"]}
{"id": "C174", "title": "The IGM curves used for a spectrum are convolved by its line spread function", "statement": "With a line spread function of the parameters the IGM curves are convolved once, by the first spectrum, and never changed by a later object. With line spread functions that come with the spectra, each spectrum is processed with curves convolved by its own function on its own range. (False: for any later history the corrections stay those of the first spectrum, while the curves of the later ones are added to the object.)", "quantifier": "every sequence of objects, accepted or refused, on any tables of IGM curves", "why_tests_cant": "the property is about every later object of an unbounded history", "anchors": ["RedshiftLibrary/src/lib/processflow/inputcontext.cpp:CInputContext::Init", "RedshiftLibrary/src/lib/spectrum/fluxcorrectionmeiksin.cpp:convolveByLSF"]}
{"id": "C175", "title": "Extinction objects of the templates over a run", "statement": "From a catalogue loaded without extinction objects and over any sequence of objects, accepted or refused, the categories and templates stay, the templates of a category have the same extinction objects and have them only if an object needed them; an accepted object finds each template with the extinction objects it needs and with the continuum removal of its parameters. Extinction objects are not given to a template added after the first of its category received them.", "quantifier": "every catalogue and every sequence of objects with any parameters", "why_tests_cant": "the invariant is over an unbounded history of initialisations, including failed ones", "anchors": ["RedshiftLibrary/src/lib/spectrum/template/catalog.cpp:SetIsmIgmCorrection", "RedshiftLibrary/src/lib/spectrum/template/catalog.cpp:InitContinuumRemoval", "RedshiftLibrary/src/lib/processflow/inputcontext.cpp:CInputContext::Init"]}
{"id": "C176", "title": "A run of a solver always leaves its warnings and puts the scope back", "statement": "Running a solver puts the scope stack back however the computation ends; the warnings raised by the run are saved in the scope of the method, also when the computation throws, and then reset; the solver result is stored exactly when the computation gives one; an exception of the computation reaches the caller unchanged. (False in one case: if the scope of the method already holds saved warnings, the program is ended.)", "quantifier": "all solvers that keep to their scope, all ends of their computation, all states of the scope stack, of the store and of the warnings", "why_tests_cant": "the guards must work for every way a computation can end, in every state of the context", "anchors": ["RedshiftLibrary/src/lib/method/solve.cpp CSolve::Compute, saveToResultStore", "RedshiftLibrary/RedshiftLibrary/method/solve.h CAutoSaveFlagToResultStore", "RedshiftLibrary/src/lib/processflow/autoscope.cpp", "RedshiftLibrary/src/lib/processflow/resultstore.cpp StoreScopedFlagResult"]}
{"id": "C177", "title": "A sequence of stages keeps the results of each apart", "statement": "Running any sequence of stages with different (model, stage, method) names, whatever computations throw: the program is not ended by a stage, each stage has its own end, the scope is empty after it, the results of a stage are unchanged by the later ones, and after the sequence a stage has a solver result exactly when its run returned.", "quantifier": "all sequences of stages of any length, all solvers that keep to their scope, all ends", "why_tests_cant": "histories of any length with any pattern of failures", "anchors": ["pylibamazed/python/pylibamazed/ProcessFlow.py run, process_spectrum_model, run_method", "pylibamazed/python/pylibamazed/ScopeManager.py push_scope", "RedshiftLibrary/src/lib/method/solve.cpp CSolve::Compute"]}
{"id": "C178", "title": "A copy of a spectrum reads like the original", "statement": "Copying, assigning, masking or extracting a spectrum gives a spectrum whose flux components, selection, parameters and attached data (name, observation, line spread function, photometry) are those of the source (restricted to the kept samples); a spectrum that cannot be read is refused", "quantifier": "every spectrum, every selected component, every state of the lazily computed components", "why_tests_cant": "the copies list the members by hand in eight places, and the components are computed lazily in the middle of a copy; a test reads a few members of one spectrum", "anchors": ["RedshiftLibrary/src/lib/spectrum/spectrum.cpp:CSpectrum(const CSpectrum &)", "RedshiftLibrary/src/lib/spectrum/spectrum.cpp:operator=", "RedshiftLibrary/RedshiftLibrary/spectrum/spectrum.h:extract"]}
{"id": "C179", "title": "A template fit uses the selected component of every observation and saves one model for each", "statement": "Whatever the operator, the spectra fitted are the observations with the component the parameters select, and the saved models are one per observation under its identifier", "quantifier": "every number of observations, every selected component, every previous selection, both operators", "why_tests_cant": "the operators keep their own lists of spectra made at construction; the unit tests of the log operator use the raw component and one observation", "anchors": ["RedshiftLibrary/src/lib/method/templatefittingsolve.cpp:Solve", "RedshiftLibrary/src/lib/operator/templatefittinglog.cpp:COperatorTemplateFittingLog", "RedshiftLibrary/src/lib/operator/templatefittingBase.cpp:ComputeSpectrumModel", "RedshiftLibrary/src/lib/operator/modelspectrumresult.cpp:addModel"]}
{"id": "C180", "title": "Every log handler receives exactly the messages of its level while it exists", "statement": "Over any history of handlers created, configured and destroyed and of messages logged, each handler receives exactly the messages logged while it exists at a level not below its mask, once and in order, whatever the other handlers do; a destroyed handler is never called", "quantifier": "every history of calls, every number of handlers, every mask, level and text", "why_tests_cant": "the table of the handlers is shared state modified by constructors and destructors; tests use one handler at a time", "anchors": ["RedshiftLibrary/src/lib/log/log.cpp:AddHandler", "RedshiftLibrary/src/lib/log/log.cpp:RemoveHandler", "RedshiftLibrary/src/lib/log/log.cpp:logEntry", "RedshiftLibrary/src/lib/log/handler.cpp:CLogHandler"]}
{"id": "C181", "title": "Messages logged by several threads are neither lost nor mixed, and the threads do not block each other for ever", "statement": "Whatever the interleaving of the threads, each handler receives every message at a level not below its mask once, all handlers in the same order, which keeps the order of each thread; the threads always end", "quantifier": "every number of threads, every program of each, every schedule, every set of handlers", "why_tests_cant": "a schedule is chosen by the machine; a test sees one", "anchors": ["RedshiftLibrary/src/lib/log/log.cpp:logEntry", "RedshiftLibrary/src/lib/common/mutex.cpp:Lock", "RedshiftLibrary/src/lib/log/handler.cpp:~CLogHandler"]}
{"id": "C182", "title": "Second first pass of the line model", "statement": "With a fitted continuum, asking for more than one candidate from the second first pass (extremaCountB) adds to the candidates of the first pass those found with the continuum of the spectrum that are not near them. False of the code: that pass is run with the same continuum, and for every input the stored results and the end of the solver are the same as without it.", "quantifier": "all parameter values, all outcomes of the first pass, all stores", "why_tests_cant": "a test compares a few configurations; that the option has no effect must be shown for every first pass", "anchors": ["RedshiftLibrary/src/lib/method/linemodelsolve.cpp:CLineModelSolve::Solve", "RedshiftLibrary/src/lib/operator/linemodel.cpp:COperatorLineModel::Init"]}
{"id": "C183", "title": "Results stored by the line model solver", "statement": "Whatever happens in the passes, the solver only adds results, under seven names in a fixed order and stopping at a failure, never changes one stored before; when it ends well all seven are there and come from the same run, the first pass and final PDF being stored twice. With the names free, its end does not depend on the scope nor on what else is stored.", "quantifier": "all outcomes of every step, all contents of the store, all scopes", "why_tests_cant": "needs every failure point and every previous content of the store", "anchors": ["RedshiftLibrary/src/lib/method/linemodelsolve.cpp:CLineModelSolve::compute", "RedshiftLibrary/src/lib/method/linemodelsolve.cpp:CLineModelSolve::Solve"]}
{"id": "C184", "title": "Number of candidates of the line model solver", "statement": "The solver gives at most extremaCount candidates and at most one per first pass candidate; without second pass it gives the extremaCount best peaks of the PDF. The last part is false: without second pass exactly one candidate is given, whatever is asked and however many peaks there are.", "quantifier": "all PDFs, windows, options", "why_tests_cant": "the number must be bounded for every PDF", "anchors": ["RedshiftLibrary/src/lib/method/linemodelsolve.cpp:CLineModelSolve::compute", "RedshiftLibrary/src/lib/operator/pdfz.cpp:COperatorPdfz::searchMaxPDFcandidates"]}
{"id": "C185", "title": "A solver's templates do not depend on the solvers before it", "statement": "The template catalogue is shared by all the solvers of a run, with a flag that selects its linear or log-sampled lists. Whatever the solvers run before did, including those that failed, a solver reads the lists of its own options (template fitting: the log-sampled ones with FFT, the linear ones for the models; template combination and line model: the linear ones) and so ends in the same way as with a freshly initialised catalogue; and no solver changes the lists.", "quantifier": "every catalogue, every sequence of solvers with any outcome of their fits, PDF and models, every store", "why_tests_cant": "a flag left behind by an exception only shows in runs where one solver fails and another one follows", "anchors": ["RedshiftLibrary/src/lib/method/templatefittingsolve.cpp:62-215, 355-478", "RedshiftLibrary/src/lib/method/tplcombinationsolve.cpp:55-236, 342-420", "RedshiftLibrary/src/lib/processflow/inputcontext.cpp:223-224", "RedshiftLibrary/RedshiftLibrary/spectrum/template/catalog.h:77-80, 160-186"]}
{"id": "C186", "title": "Results stored by the template solvers", "statement": "However a template solver ends, it only adds results to the store: the fits of the templates of its category and components (template fitting: one for each template and component under its name; template combination: one for each component) and then, in order, pdf, pdf_params, candidatesresult and extrema_results; nothing stored before is changed. When it ends well all are there and belong together: every template of the category was fitted, the PDF and candidates are those of these fits, there is one model for each candidate in order, computed (template fitting) with the linear template of the best name, and the first is the result given to the caller.", "quantifier": "every catalogue and store, every outcome of the fits, PDF and models", "why_tests_cant": "the relation between all the stored results under any failure point is not enumerable by tests", "anchors": ["RedshiftLibrary/src/lib/method/templatefittingsolve.cpp:62-215, 355-490", "RedshiftLibrary/src/lib/method/tplcombinationsolve.cpp:55-236, 342-432", "RedshiftLibrary/src/lib/processflow/resultstore.cpp:62-95"]}
{"id": "C187", "title": "Line catalogues are values", "statement": "Whatever the history of calls that make, copy, filter and change line catalogues, also those that end in an exception: a copy holds the lines of its original at that moment, a change of one catalogue is never seen in another one, a call refused changes no catalogue, and each profile object belongs to exactly one line: none is leaked, shared or used after its deletion.", "quantifier": "all histories of calls on any number of catalogues", "why_tests_cant": "aliasing and lifetime errors show only for particular histories", "anchors": ["RedshiftLibrary/src/lib/line/line.cpp:94-165", "RedshiftLibrary/src/lib/line/catalog.cpp:60-200", "RedshiftLibrary/src/lib/line/lineRatioCatalog.cpp", "RedshiftLibrary/RedshiftLibrary/line/catalog.h:74"]}
{"id": "C188", "title": "A line added is the line described", "statement": "A line added to a catalogue is found under its identifier with the name, position, offset, groups, nominal amplitude, type, force and profile described, asymmetry parameters included, and the other lines are unchanged. It is false for the asymmetry parameters of ASYM and ASYMFIT profiles, which are ignored.", "quantifier": "all catalogues reached by a history of calls, all descriptions", "why_tests_cant": "every description and history must be covered", "anchors": ["RedshiftLibrary/src/lib/line/catalog.cpp:108-151", "RedshiftLibrary/src/lib/line/line.cpp"]}
{"id": "C189", "title": "Changes of the profiles of a catalogue", "statement": "The conversion for the IGM gives the profile with extinction to the emission lines named LyAE or under 1216 A and changes nothing else; the asymmetry of a line ratio catalogue is given to the asymmetric lines, or refused if its profile is unknown. The latter is false after the conversion: the parameters are silently ignored and any name is accepted.", "quantifier": "all catalogues reached by a history of calls, all names and parameters", "why_tests_cant": "the two changes interact only in some histories", "anchors": ["RedshiftLibrary/src/lib/line/catalog.cpp:166-200", "RedshiftLibrary/src/lib/line/line.cpp:143-165"]}
{"id": "C190", "title": "Each stage of a line model run uses the fitter and switches asked for", "statement": "In every run of the line model solver (first pass, candidate estimates, velocity fits, fine grids, optional svdlc fit, report), whatever fits throw, each fit is made with the fitter named by the parameter of its stage (firstPass.fittingMethod; fittingMethod with the offset options; hybrid/individual in the velocity fit; secondPassLcFittingMethod), never through a null fitter, and with the continuum, Lyman alpha and template ratio ISM switches of its pass; a run that ends has made exactly the documented stages, in order. The line measurement and the template orthogonalisation use their documented fitters.", "quantifier": "all parameter sets, numbers of redshifts, candidates, velocity trials and window sizes, and all patterns of failing fits", "why_tests_cant": "the fitter is swapped and restored in several places for every candidate; the property is about all histories of stages and exceptions, not about one run", "anchors": ["RedshiftLibrary/src/lib/linemodel/linemodelfitting.cpp:setPassMode", "RedshiftLibrary/src/lib/linemodel/linemodelfitting.cpp:SetFittingMethod", "RedshiftLibrary/src/lib/linemodel/abstractfitter.cpp:makeFitter", "RedshiftLibrary/src/lib/operator/linemodel.cpp:fitVelocity", "RedshiftLibrary/src/lib/operator/linemodel.cpp:ComputeSecondPass", "RedshiftLibrary/src/lib/operator/linemodel.cpp:computeForLineMeas"]}
{"id": "C191", "title": "The reported method and the model spectrum agree with the fitter in use", "statement": "In every fit of a line model run the fitting method reported by the model is that of the fitter in use, and when that fitter fits amplitude offsets under the lines the model spectrum by which the fit is judged includes them.", "quantifier": "all parameter sets, run sizes and patterns of failing fits", "why_tests_cant": "the stale settings are left behind by a stage that has finished, so that each stage tested alone is right", "anchors": ["RedshiftLibrary/src/lib/operator/linemodel.cpp:fitVelocity", "RedshiftLibrary/src/lib/operator/linemodel.cpp:ComputeSecondPass", "RedshiftLibrary/src/lib/operator/linemodel.cpp:buildExtremaResults", "RedshiftLibrary/src/lib/linemodel/linemodelfitting.cpp:SetFittingMethod"]}
{"id": "C192", "title": "Unknown fitting methods and line ratio types stop a run before its first fit", "statement": "A run of the line model whose fittingMethod, lineRatioType or firstPass.fittingMethod is not a known name makes no fit and ends with the error of the first unknown name in that order; with known names the first pass reaches its first fit; a secondPassLcFittingMethod other than its two names means no additional fit and changes nothing else.", "quantifier": "all strings for the four names, both builds (with and without LBFGSB), all run sizes", "why_tests_cant": "all strings and all runs: a finite list of wrong names proves nothing about the others", "anchors": ["RedshiftLibrary/src/lib/linemodel/abstractfitter.cpp:makeFitter", "RedshiftLibrary/src/lib/linemodel/lineratiomanager.cpp:makeLineRatioManager", "RedshiftLibrary/src/lib/operator/linemodel.cpp:ComputeSecondPass"]}
{"id": "C193", "title": "Iterations of the continuum re-estimation", "statement": "A hybrid fit with n re-estimation iterations is a fit of the amplitudes followed by n times: continuum of the first observation estimated again with the fitted lines removed, new fit of the amplitudes; the amplitudes returned are those of the last continuum, the observed flux and the other observations are untouched, and a model that already reproduces the flux on the continuum the estimator finds is kept.", "quantifier": "every number of iterations, spectrum, continuum estimator, amplitude fit and line ratio", "why_tests_cant": "the statement ranges over all numbers of iterations and all estimators; the tests use no re-estimation", "anchors": ["RedshiftLibrary/src/lib/linemodel/hybridfitter.cpp:doFit", "RedshiftLibrary/src/lib/linemodel/spectrummodel.cpp:EstimateSpectrumContinuum"]}
{"id": "C194", "title": "A line model fit does not depend on the fits made before", "statement": "The best fit at a redshift (merit, amplitudes, continuum) is the same whatever fits were made before on the same object, in the first pass, the second pass or the report, for every continuum component and re-estimation option.", "quantifier": "every history of fits, with any redshifts and any numbers of re-estimations", "why_tests_cant": "independence from the history is about all sequences of calls", "anchors": ["RedshiftLibrary/src/lib/linemodel/linemodelfitting.cpp:fit", "RedshiftLibrary/src/lib/linemodel/linemodelfitting.cpp:prepareAndLoadContinuum", "RedshiftLibrary/src/lib/linemodel/spectrummodel.cpp:setContinuumComponent", "RedshiftLibrary/src/lib/operator/linemodel.cpp:RecomputeAroundCandidates"]}
{"id": "C195", "title": "Line ratios are compared on equal terms", "statement": "In one fit the line ratio kept is the one with the smallest merit when each is tried alone on the same continuum; the order of the catalogue does not matter beyond ties.", "quantifier": "every list of line ratios, continuum, amplitude fit and number of re-estimations", "why_tests_cant": "minimality over all ratios and independence of the order", "anchors": ["RedshiftLibrary/src/lib/linemodel/linemodelfitting.cpp:fit", "RedshiftLibrary/src/lib/linemodel/hybridfitter.cpp:doFit"]}
{"id": "C196", "title": "An orthogonalised template has nothing left under the lines", "statement": "The template returned by orthogonalisation is orthogonal (scalar product weighted by its errors) to the flux of the lines of every element of the line model, and keeps the flux of the template where there is no line.", "quantifier": "every template, error, and list of line elements with disjoint supports", "why_tests_cant": "orthogonality and locality for all fluxes, supports, profiles and numbers of elements", "anchors": ["RedshiftLibrary/src/lib/linemodel/templatesortho.cpp:OrthogonalizeTemplate", "RedshiftLibrary/src/lib/linemodel/linemodelfitting.cpp:CLineModelFitting", "RedshiftLibrary/src/lib/linemodel/abstractfitter.cpp:fitAmplitude", "RedshiftLibrary/src/lib/linemodel/hybridfitter.cpp:doFit"]}
{"id": "C197", "title": "A resampled spectrum is made from its present flux", "statement": "After any history of calls (new flux or axis, component, continuum options, amplitude, inversion, correction, smoothing, masks, copies, interpolation changes, resamplings) the resampling of a spectrum depends only on its present axis, selected flux and interpolation.", "quantifier": "every history of calls on a spectrum, every interpolation and request", "why_tests_cant": "a cache is right only if every sequence of calls keeps it right", "anchors": ["RedshiftLibrary/src/lib/spectrum/spectrum.cpp:Rebin", "RedshiftLibrary/src/lib/spectrum/spectrum.cpp:setRebinInterpMethod", "RedshiftLibrary/src/lib/spectrum/rebin/rebin.cpp:convert", "RedshiftLibrary/src/lib/spectrum/rebin/rebinFineGrid.cpp:rebin", "RedshiftLibrary/RedshiftLibrary/spectrum/rebin/rebin.h:reset"]}
{"id": "C198", "title": "A failing stage or model never hides or disturbs the others", "statement": "For one spectrum, once the initialisation succeeded: every spectrum model having a redshift solver has it run, whatever happened to the other models; each stage is called at most once per model; the errors found in the output for a model are exactly those of its own stages (a failed stage has its own code, a successful one none, a stage reported as not run was asked for, was not run, and the stage blamed is one it uses and failed); every stage asked for is either run or reported as not run; the stages run and the errors of a model depend on the outcomes of its own stages only; classification is run exactly when some redshift solver succeeded, its absence being reported otherwise; the results are loaded at the end. When the initialisation fails nothing else is run and every stage asked for is reported as not run. The stack of scopes is empty after the run and different (model, stage) pairs never share an error entry.", "quantifier": "every set of models and parameters, every behaviour of the stages (any of them failing at any call, depending on all that was done before)", "why_tests_cant": "the failure patterns of up to six stages of any number of models are exponentially many, and a stage silently missing from the output is seen only by comparing the trace to the parameters", "anchors": ["pylibamazed/python/pylibamazed/ProcessFlow.py: run, process_spectrum_model, store_exception_handler, all_redshift_solver_failed, run_classification_solver", "pylibamazed/python/pylibamazed/ScopeManager.py: push_scope, get_scope_spectrum_model", "pylibamazed/python/pylibamazed/ResultStoreOutput.py: store_error, store_consequent_error", "pylibamazed/python/pylibamazed/AbstractOutput.py: get_error_full_name, spectrum_model_stages", "pylibamazed/python/pylibamazed/Parameters.py: stage_enabled, is_tplratio_catalog_needed, is_a_redshift_solver_used"]}
{"id": "C199", "title": "The pixels kept are those the filters describe", "statement": "The pixels of a loaded spectrum are, for each observation, those for which every filter of the parameters holds with its documented meaning, in their original order and with all their columns attached; the order of the filters does not matter; a filter on an unknown column, an unknown instruction or inconsistent observations are refused; a spectrum left empty is refused; the conversion from air is done exactly for spectra in air.", "quantifier": "every spectrum (any observations, columns, NaN values) and every list of filters", "why_tests_cant": "the row selection must be right for every table and every combination of filters", "anchors": ["pylibamazed/python/pylibamazed/Filter.py: FilterItem, FilterList", "pylibamazed/python/pylibamazed/FilterLoader.py: get_filters", "pylibamazed/python/pylibamazed/ParametersChecker.py: _check_filters", "pylibamazed/python/pylibamazed/AbstractSpectrumReader.py: init, _apply_filters, _check_wavelengths, _corrected_airvacuum_method"]}
{"id": "C200", "title": "Observations become spectra without losing or mixing pixels", "statement": "With merged observations the spectrum has every pixel of every observation exactly once, with its own flux and error, in strictly increasing wavelengths, each at its own wavelength; observations without common wavelengths are merged exactly; the order of the observations does not matter; overlapping observations are accepted. With separate observations each one becomes its own spectrum and is accepted exactly when its name is in the parameters and all names of the parameters are present. A warning is given exactly when the spectrum does not cover the range of the parameters.", "quantifier": "every list of observations (any sizes, overlaps, repeated wavelengths), every order given by the unstable sort to equal wavelengths", "why_tests_cant": "the bookkeeping by positions must be right for every pattern of repeated wavelengths", "anchors": ["pylibamazed/python/pylibamazed/AbstractSpectrumReader.py: _add_cspectra, _check_wavelengths, init", "pylibamazed/python/pylibamazed/ParametersAccessor.py: get_lambda_range, get_observation_ids"]}
{"id": "C201", "title": "Line measurement parameters of the spectrum", "statement": "Every line measurement made for a spectrum uses the redshift and the velocities of that spectrum: the row of the catalogue of line measurements for a spectrum model that has one, the best candidate of the redshift solver of the same spectrum otherwise, whatever the spectra processed before with the same session and whatever the failures of their stages. When no NaN has been met, a spectrum processed after others gives the same errors, the same calls of the stages, the same measurements and the same line spread function as in a new session.", "quantifier": "every configuration of the spectrum models, all sequences of spectra, all outcomes of all the solvers and readers, all failures", "why_tests_cant": "the parameters are one object shared and overwritten by all the spectra of a session, and a failure may leave it half updated; tests process one spectrum per session or do not compare with a new session", "anchors": ["pylibamazed/python/pylibamazed/Parameters.py: load_linemeas_parameters_from_catalog, load_linemeas_parameters_from_result_store, set_redshiftref, set_velocity_absorption, set_velocity_emission", "pylibamazed/python/pylibamazed/ProcessFlow.py: initialize, run_load_linemeas_params", "RedshiftLibrary/src/lib/processflow/context.cpp: LoadParameterStore", "RedshiftLibrary/src/lib/processflow/parameterstore.cpp: FromString"]}
{"id": "C202", "title": "Line spread function of the spectrum", "statement": "When the parameters ask for the line spread function of the spectrum data, a spectrum is processed with the width read with it for each observation, never the one of a spectrum processed before; otherwise with the type and the value given by the user, unchanged by the spectra processed before.", "quantifier": "every type of line spread function, any number of observations, all sequences of spectra with arbitrary failures", "why_tests_cant": "the width of each spectrum is written in the parameters shared by the session before being read again through the parameter store of the library; tests use one spectrum and one observation", "anchors": ["pylibamazed/python/pylibamazed/AbstractSpectrumReader.py: _lsf_args, init", "pylibamazed/python/pylibamazed/lsf.py: LSFParameters, TLSFArgumentsCtor", "pylibamazed/python/pylibamazed/Parameters.py: set_lsf_param"]}
{"id": "C203", "title": "The loaded results are exactly those the result store has", "statement": "After the results of a spectrum are loaded (load_all without a cached output), for every model, dataset, observation, candidate and attribute of the results table that is to be shown (the extended ones only on request, the first pass ones of the candidates only when there is a second pass), the loaded output holds the attribute if and only if the result store has it, with the value of the store at that place; attributes already put with the candidates (sub-type, reliability) are kept; and the loading never fails.", "quantifier": "every results table, set of models, solve methods, observation and band names, result store content and former content of the output", "why_tests_cant": "A test loads one store with one configuration; datasets and attributes are selected by four nested loops over a table, placeholders in names may collide and a second method may overwrite the first, so only a statement over every table and store shows nothing is dropped or mixed.", "anchors": ["pylibamazed/python/pylibamazed/AbstractOutput.py: load_all, load_root, load_object_level, fill_object_dataset, load_method_level, load_candidate_level, build_candidate_dataset, filter_datasets, filter_dataset_attributes", "pylibamazed/python/pylibamazed/ResultStoreOutput.py: ResultStoreOutput", "pylibamazed/python/pylibamazed/OutputSpecifications.py: OutputSpecifications", "pylibamazed/auxdir/pylibamazed/results_specifications.csv"]}
{"id": "C204", "title": "An attribute has the same value before and after the results are loaded", "statement": "Asking an output for an attribute of a dataset (get_attribute) gives the same answer whether the results have been loaded (read in the loaded results) or not yet (read in the result store).", "quantifier": "every results table, result store, model, dataset, attribute and candidate rank", "why_tests_cant": "Tests read loaded results only; the two paths select the solver, the names and the visible attributes independently, and must agree for every dataset and attribute.", "anchors": ["pylibamazed/python/pylibamazed/AbstractOutput.py: get_attribute, has_attribute, get_method, load_all", "pylibamazed/python/pylibamazed/ResultStoreOutput.py: get_attribute_from_source, has_attribute_in_source"]}
{"id": "C205", "title": "Saved redshift PDF is read back unchanged", "statement": "A redshift PDF rebuilt from what the results keep of it (the values, and the bounds, steps and centres of its grids) has the same redshifts, values and grid parameters as the PDF of the solver, also after it has been converted to a regular grid or extended on the right; the first pass PDF, kept without centres, too when its grid has no window; and values that do not match the saved grid are refused.", "quantifier": "every list of grid parameters and sampling, all values (NaN included), all sequences of conversions and extensions", "why_tests_cant": "The grid is sampled again from the parameters with windows inserted, and the parameters are changed by the conversions apart from the grid: equality must hold for every grid and history, tests read one PDF.", "anchors": ["RedshiftLibrary/src/lib/operator/logZPdfResult.cpp: CLogZPdfResult, setZGridParams, setZGrid, getZGridParams, convertToRegular, extrapolate_on_right_border", "RedshiftLibrary/src/lib/common/zgridparam.cpp: CZGridListParams::getZGrid", "pylibamazed/python/pylibamazed/PdfHandler.py: buildPdfParams, BuilderPdfHandler, PdfHandler"]}
{"id": "C206", "title": "PDF attributes asked by name", "statement": "An attribute of the PDF asked by its short name is that of the PDF of the pass in the name: its own redshifts or values for a native one, those of the PDF on its fine regular grid otherwise.", "quantifier": "every PDF of both passes, every combination of native or regular, grid or values, first pass or final", "why_tests_cant": "The name is analysed by substrings and the PDF rebuilt at each request; tests ask the final PDF only.", "anchors": ["pylibamazed/python/pylibamazed/AbstractOutput.py: get_pdf_attribute, get_attribute_short", "pylibamazed/python/pylibamazed/PdfHandler.py: BuilderPdfHandler"]}
{"id": "C207", "title": "Reliability only from PDFs on the grid of the network", "statement": "A reliability is computed only from a PDF that, once regular and extended, is on the grid the network was trained on: same number of redshifts, same end and same step in 1+z up to 1e-6.", "quantifier": "every saved PDF, grid, network size, grid end and step", "why_tests_cant": "The checks compare three numbers of two grids; that they imply the grids agree has to hold for all grids, tests use the matching one and a few refused ones.", "anchors": ["pylibamazed/python/pylibamazed/Reliability.py: get_probas", "pylibamazed/python/pylibamazed/PdfHandler.py: convertToRegular"]}
{"id": "C208", "title": "The result file holds all the results, once, and nothing else", "statement": "When the results of a spectrum are written in a file without error, every attribute of every loaded dataset (root, model, candidates of models with a redshift solver) and every error is in the file at the place given by spectrum, model, candidate and dataset, with its value; everything new in the file comes from there; and, also when the writing fails, what was in the file stays, no place is used twice and no attribute gets two values.", "quantifier": "every content of the results (any models, datasets, candidates, scalars and arrays), every former content of the file", "why_tests_cant": "Tests write a few outputs and look at some entries; the file layout depends on the size of the first attribute of each dataset and on the first list of candidates.", "anchors": ["pylibamazed/python/pylibamazed/H5Writer.py: H5Writer, _create_dataset_from_dict", "pylibamazed/python/pylibamazed/AbstractOutput.py: get_available_datasets, get_dataset_size, get_nb_candidates, get_candidate_group_name"]}
{"id": "C209", "title": "When the results can be written", "statement": "The writing of the results of a spectrum succeeds whenever its identifier is not yet in the file, its names are distinct, the arrays of each table have the same length and the datasets of candidates have one entry per candidate; an identifier already in the file is always refused.", "quantifier": "every results content and former file content, in particular left by a failed writing", "why_tests_cant": "success must hold for all outputs that satisfy the conditions, and refusal after any first attempt, complete or not", "anchors": ["pylibamazed/python/pylibamazed/H5Writer.py: write_hdf5"]}
{"id": "C210", "title": "What a version-2 parameter file can configure", "statement": "Every parameter file of version 2 that the schema and the checks accept gives parameters in which the section of each spectrum model is the one of the file, found under its name, and satisfies the published schema. That every documented option can then be used is false: no accepted file configures the air-to-vacuum conversion, a line measurement, template fitting, the variable-width line spread function, the asymmetric Lyman-alpha profile, a catalogue of priors or the Balmer rule alone.", "quantifier": "for every parameter file, every spectrum-model name that is not the name of a general parameter, and any behaviour of the other checks", "why_tests_cant": "Tests use a handful of files and mostly skip the checks; that no accepted file reaches an option is a statement about all files.", "anchors": ["pylibamazed/auxdir/pylibamazed/jsonschema-v2/*.json: schemas", "pylibamazed/python/pylibamazed/ParametersConverter.py: ParametersConverterV2", "pylibamazed/python/pylibamazed/ParametersChecker.py: ParametersChecker", "pylibamazed/python/pylibamazed/ParametersAccessor.py: ParametersAccessor", "pylibamazed/python/pylibamazed/Parameters.py: Parameters"]}
{"id": "C211", "title": "Renaming of the version-1 parameters", "statement": "Converting a version-1 file renames every key and every string value by the published table, all at once and only once, whatever the order of the rows: old names get their new name, everything else is unchanged, a renamed file is not altered again, and different old names stay different but for one documented pair. As long as the keys of an object stay distinct nothing is lost. That a value the user chose freely is unchanged is false: a directory or a model named as an old name is renamed.", "quantifier": "for every JSON tree whose strings have no quote or backslash", "why_tests_cant": "The replacements are made one after the other in the text: tests of a few keys do not show that no row disturbs the result of another.", "anchors": ["pylibamazed/python/pylibamazed/ParametersConverter.py: ParametersConverterV1.convert", "pylibamazed/auxdir/pylibamazed/rename_params_v1_to_treed.csv: table"]}
{"id": "C212", "title": "Sections of the version-1 parameters", "statement": "After conversion each spectrum model of the list has its stages in the order redshift, line measurement, reliability, exactly those its old parameters ask for, after any stage it already had; the method, the sections of the methods, the line-measurement section and the reliability model are found below their solvers with their values; every other parameter of the model and of the file is unchanged. A missing section is an error.", "quantifier": "for every converted tree, every list of distinct spectrum models and every section", "why_tests_cant": "Tests convert one sample; that no other parameter is touched and no section is lost concerns all of them.", "anchors": ["pylibamazed/python/pylibamazed/ParametersConverter.py: ParametersConverterV1.update_redshift_part, update_linemeas_part, update_reliability_part"]}
{"id": "C213", "title": "The Gaussian fit of a candidate is a bounded search around its redshift", "statement": "With the integration method by Gaussian fit, the peak of a candidate is fitted first in its whole integration range, then, as long as the fit is not believed (width less than twice the half-width of the window, width not negligible before its error), in windows around the redshift of half-width divided by two each time, inside the integration range, at most five times. The search succeeds exactly when its last fit is believed, and stops at the first one; the values kept are those of the last fit, and the probability is then the area of the Gaussian, or NaN after a failure. In a sorted grid that covers the integration range no fit fails for want of data: it is given at least two consecutive samples that enclose its window, scaled to a maximum of 1, and the values kept are scaled back so that a best fit of the scaled samples is a best fit of the samples; the derivatives given to the solver are those of the residuals.", "quantifier": "every grid, PDF, integration range, redshift in it, and every behaviour of the solver", "why_tests_cant": "the number of tries, the windows, and the state left in the candidate depend on what the solver answers at every try, for all the grids", "anchors": ["RedshiftLibrary/src/lib/statistics/pdfcandidatesz.cpp: CPdfCandidatesZ::getCandidateRobustGaussFit, getCandidateGaussFit, pdfz_lmfit_f, pdfz_lmfit_df, Compute", "RedshiftLibrary/RedshiftLibrary/common/range.h: CRange::IntersectWith, getEnclosingIntervalIndices"]}
{"id": "C214", "title": "Prior on the line amplitudes in the choice of the fit of a ratio catalog", "statement": "With prior data for the ratio catalogs, the merit of the fit of a catalog is completed by a prior: the part of the template, redshift and dust, plus, for each element with a positive line inside the wavelength range, the weighted squared distance between its amplitude (fitted over nominal) and the mean in units of the width; elements without a positive line do not count; the result of a catalog (merit, amplitudes, errors) is recorded each time merit and prior together improve on what is recorded, so that the first fit of a catalog with a finite merit is always recorded.", "quantifier": "every set of elements and lines, with every amplitude and every prior", "why_tests_cant": "which elements could not be fitted, and so have no amplitude, depends on the catalog, the redshift and the masks", "anchors": ["RedshiftLibrary/src/lib/linemodel/tplratiomanager.cpp: CTplratioManager::computelogLinePriorMerit, computeMerit, updateTplratioResults", "RedshiftLibrary/src/lib/linemodel/abstractfitter.cpp: CAbstractFitter::fitAmplitude"]}
{"id": "C215", "title": "Extension of the parameters: only missing values are added; values given by the user are kept", "statement": "Before a run the parameters are completed: the continuum removal of the spectrum and of the template catalog, their kernels, the continuum re-estimation and the logarithmic sampling of each spectrum model receive a default value where nothing else defines them; a value given by the user is never replaced, and nothing else is touched.", "quantifier": "every parameter dictionary, with any spectrum models and any sections present or absent", "why_tests_cant": "the written places depend on every combination of solvers, components and methods of all the spectrum models", "anchors": ["pylibamazed/python/pylibamazed/ParametersExtender.py: ParametersExtender.extend", "pylibamazed/python/pylibamazed/ParametersChecker.py: continuum_removal_presence_condition, template_catalog_continuum_removal_presence_condition, linemodelsolve_continuumreestimation_presence_condition, useloglambdasampling_presence_condition", "pylibamazed/python/pylibamazed/ParametersAccessor.py: _get_or_create_section"]}
{"id": "C216", "title": "Loading of the line ratio catalogs", "statement": "A ratio catalog is accepted when its lines are different and are all lines of the main catalog; it then has one amplitude for each line of the main catalog: that of its row of the same identity (name, position, type), zero without such a row. The list has each catalog once for each dust coefficient, with the amplitudes of its own file, and equal priors that sum to one; one refused catalog and there is no list.", "quantifier": "every main catalog, every directory of ratio catalogs in any order of rows, every number of dust coefficients", "why_tests_cant": "the rows of the files are in an order of their own and may miss any of the lines", "anchors": ["pylibamazed/python/pylibamazed/CalibrationLibrary.py: CalibrationLibrary.load_line_ratio_catalog_list", "RedshiftLibrary/src/lib/line/lineRatioCatalog.cpp: CLineRatioCatalog"]}
{"id": "C217", "title": "Loading of the photometric bands", "statement": "The bands are loaded when the directory has exactly one curve for each of the bands asked; those curves, and no other, are then the photometric bands. A band asked without curve, or with two, is refused.", "quantifier": "every list of bands and every directory, read in any order", "why_tests_cant": "the order of the directory is that of the file system", "anchors": ["pylibamazed/python/pylibamazed/CalibrationLibrary.py: CalibrationLibrary.load_photometric_bands"]}
{"id": "C218", "title": "Identifiers of the lines of the attributes", "statement": "For a list of output attributes, each attribute of a line receives the identifier of that line in the line catalog of its own spectrum model and method; an attribute whose model has no catalog receives none.", "quantifier": "every list of attributes in any order, every set of catalogs", "why_tests_cant": "the result for an attribute depends on the attributes before it", "anchors": ["pylibamazed/python/pylibamazed/CalibrationLibrary.py: CalibrationLibrary.get_lines_ids"]}
