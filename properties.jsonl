{"id": "C01", "title": "A storage cannot be drained below zero", "statement": "When the outflow rates of a finite storage are limited for a time step, the storage content at the end of the step (content + static inputs + (inflow rates - outflow rates) x dt) is not negative, whatever the outflow rates asked for by its processes; rates the storage can honour are left untouched, no outflow rate is increased and none becomes negative.", "quantifier": "all contents >= 0, all lists of outflow/inflow rates, static inputs, time steps > 0", "why_tests_cant": "must hold for every content, rate, capacity and time step (a continuum), not for sampled values", "anchors": ["core/src/containers/WaterContainer.cpp: WaterContainer::ApplyConstraints", "core/src/base/NumericConstants.h"]}
{"id": "C02", "title": "A storage cannot be filled above its capacity", "statement": "When the rates of a capacity-limited storage are limited for a step, the end-of-step content does not exceed the capacity: with an overflow process the overflow carries exactly the excess, without one the inflow rates are reduced so that the content lands exactly on the capacity, and inputs that cannot be limited are reported as a configuration error instead of overfilling.", "quantifier": "all contents, capacities, rate lists, static inputs, time steps > 0; with and without overflow", "why_tests_cant": "must hold for every content, rate, capacity and time step (a continuum), not for sampled values", "anchors": ["core/src/containers/WaterContainer.cpp: WaterContainer::ApplyConstraints", "core/src/processes/ProcessOutflowOverflow.cpp"]}
{"id": "C03", "title": "Limiting is proportional and idempotent", "statement": "Limiting shares the reduction between the competing outflows in proportion to the rates they asked for (order-independent), and limiting an already limited set of rates changes nothing.", "quantifier": "all rate lists and their permutations", "why_tests_cant": "order-independence over all permutations of all lists", "anchors": ["core/src/containers/WaterContainer.cpp: WaterContainer::ApplyConstraints"]}
{"id": "C04", "title": "Committing a step never leaves a negative or residual content", "statement": "Committing a time step adds exactly the pending changes to the content and clears them; the visible content is never negative (unless the store is explicitly allowed to), is exactly zero when the result is within 1e-8 of zero, and differs from the exact sum by at most 1e-8 whenever the exact sum is >= -1e-8. Infinite storages are unaffected.", "quantifier": "all contents and pending changes", "why_tests_cant": "must hold for every content, rate, capacity and time step (a continuum), not for sampled values", "anchors": ["core/src/containers/WaterContainer.cpp: WaterContainer::Finalize"]}
{"id": "C05", "title": "Saved initial state is what reset restores", "statement": "After saving the current state as initial state, any sequence of operations followed by a reset brings every water, snow and ice storage back to exactly the saved content with no pending change.", "quantifier": "all operation sequences between save and reset", "why_tests_cant": "quantifies over all histories", "anchors": ["core/src/containers/WaterContainer.cpp: Reset, SaveAsInitialState", "core/src/bricks/Brick.cpp", "core/src/bricks/Snowpack.cpp", "core/src/bricks/Glacier.cpp"]}
{"id": "C06", "title": "Water balance of the solver phase", "statement": "Over one solved time step the area-weighted sum of storage changes equals what entered the solved storages minus what left to the outlet and the atmosphere, whatever rates the processes ask for, up to the 1e-8 end-of-step snapping, when every storage only feeds storages declared after it.", "quantifier": "all feed-forward storage networks of any size, all process laws, all states, all time steps", "why_tests_cant": "all network topologies and all process laws", "anchors": ["core/src/base/Processor.cpp: ApplyRates, FinalizeTimeStep", "core/src/processes/Process.cpp: ApplyChange", "core/src/fluxes/Flux.cpp: UpdateFlux"]}
{"id": "C07", "title": "Water balance holds for every explicit solver", "statement": "Euler, Heun and Runge-Kutta 4 all satisfy the step water balance: intermediate stages leave no trace in the storages (their trial changes are rolled back) and only the final constrained rates move water.", "quantifier": "all networks, process laws and states, all three explicit schemes", "why_tests_cant": "intermediate-stage side effects depend on the whole topology", "anchors": ["core/src/base/SolverEulerExplicit.cpp", "core/src/base/SolverHeunExplicit.cpp", "core/src/base/SolverRK4.cpp", "core/src/base/Processor.cpp: ResetState, EvaluateRates, ConstrainRates"]}
{"id": "C08", "title": "Water balance of the direct phase", "statement": "Processing the bricks computed directly (snowpacks, canopies, land covers) moves water without creating or destroying it: what each brick receives and holds equals what it passes on and keeps.", "quantifier": "all direct bricks with any number of processes and fluxes, all rates", "why_tests_cant": "all wirings and laws", "anchors": ["core/src/base/Processor.cpp: ApplyDirectChanges", "core/src/bricks/Brick.cpp: UpdateContentFromInputs", "core/src/fluxes/FluxToBrickInstantaneous.cpp"]}
{"id": "C09", "title": "Water balance of a whole simulation", "statement": "Over any number of time steps, cumulated inputs minus cumulated outlet discharge minus cumulated evapotranspiration equals the change of area-weighted storage, with an error of at most 1e-8 per storage and step.", "quantifier": "all run lengths, forcings, networks", "why_tests_cant": "induction over unbounded run lengths", "anchors": ["core/src/base/Processor.cpp: ProcessTimeStep", "core/src/base/ModelHydro.cpp: Run", "core/src/spatial/SubBasin.cpp: ComputeOutletDischarge"]}
{"id": "C10", "title": "Constraint sweeps end in a feasible state", "statement": "Enforcing the constraints of all solved storages always terminates after at most ten sweeps; if a sweep leaves the rates unchanged, every storage of the network is simultaneously feasible (non-negative, within capacity) at the end of the step.", "quantifier": "all networks and rate vectors", "why_tests_cant": "coupled constraints over arbitrary topologies", "anchors": ["core/src/base/Processor.cpp: EnforceConstraints"]}
{"id": "C11", "title": "Solved bricks never feed bricks computed directly", "statement": "A model whose solved storage sends water to a brick computed directly is rejected at initialisation, and every accepted model has no such flux.", "quantifier": "all model structures", "why_tests_cant": "all topologies", "anchors": ["core/src/base/Processor.cpp: ValidateFluxTopology"]}
{"id": "C12", "title": "Area weighting of fluxes conserves volume", "statement": "A depth leaving a land cover or hydro unit arrives at its target as the same volume: the transmitted amount times the target area equals the released amount times the source area, for land cover to storage, unit to sub-basin and unit to outlet fluxes, and the outlet discharge is the area-weighted sum of the units' contributions.", "quantifier": "all areas and fractions in ]0,1], all amounts", "why_tests_cant": "must hold for every content, rate, capacity and time step (a continuum), not for sampled values", "anchors": ["core/src/fluxes/Flux.h", "core/src/fluxes/Flux.cpp: UpdateFlux", "core/src/base/ModelBuilder.cpp: BuildHydroUnitBricksFluxes", "core/src/spatial/SubBasin.cpp: ComputeOutletDischarge", "core/src/bricks/LandCover.cpp: SetAreaFraction"]}
{"id": "C13", "title": "Linear reservoir is integrated exactly by the analytic solver", "statement": "With the analytic solver a linear reservoir with constant inflow reaches exactly the solution of dS/dt = I - kS at the end of the step; the released volume is S0 + I dt - S1, is non-negative, and two half steps give the same state as one full step.", "quantifier": "all contents >= 0, inflows >= 0, k > 0, dt > 0", "why_tests_cant": "an identity between functions on a continuum", "anchors": ["core/src/base/SolverAnalyticLinear.cpp"]}
{"id": "C14", "title": "Implicit solvers bracket and solve their step equation", "statement": "Implicit Euler and Crank-Nicolson find, by bisection, an end-of-step content between 0 and content + inflow x dt; for a continuous non-decreasing total outflow law the step residual is within the bisection tolerance, and the reported rates exactly balance the step.", "quantifier": "all continuous non-decreasing outflow laws", "why_tests_cant": "quantifies over all outflow laws", "anchors": ["core/src/base/SolverImplicitEuler.cpp", "core/src/base/SolverCrankNicolson.cpp"]}
{"id": "C15", "title": "Sequential solvers keep the water balance", "statement": "Whatever average rates a sequential solver computes, the applied step conserves water exactly as in the explicit solvers, because limiting and application use the same rates.", "quantifier": "all laws and networks", "why_tests_cant": "all laws and networks", "anchors": ["core/src/base/SolverSequential.cpp: Solve"]}
{"id": "C16", "title": "Precipitation splitting conserves water", "statement": "Rain plus snow leaving a rain/snow splitter equals precipitation when the correction factors are 1 (and equals the corrected partition otherwise); both parts are >= 0, all snow below the transition and all rain above, and the solid fraction never increases with temperature.", "quantifier": "all precipitation >= 0 and temperatures, all thresholds", "why_tests_cant": "must hold for every content, rate, capacity and time step (a continuum), not for sampled values", "anchors": ["core/src/fluxes/SplitterSnowRainThreshold.cpp: Compute", "core/src/fluxes/SplitterSnowRainLinear.cpp: Compute", "core/src/fluxes/SplitterSnowRainCemaNeige.cpp: Compute", "core/src/fluxes/SplitterRain.cpp: Compute", "core/src/fluxes/SplitterMultiFluxes.cpp: Compute"]}
{"id": "C17", "title": "Actual evapotranspiration is bounded by demand and supply", "statement": "Every evapotranspiration law returns a rate between 0 and the potential evapotranspiration, 0 for an empty store and exactly the potential rate for a saturated store (where the law says so), and it never decreases when the store fills.", "quantifier": "all PET >= 0, contents in [0, capacity], parameters in their ranges, all ET laws", "why_tests_cant": "must hold for every content, rate, capacity and time step (a continuum), not for sampled values", "anchors": ["core/src/processes/ProcessETLinear.cpp", "core/src/processes/ProcessETPowerLaw.cpp", "core/src/processes/ProcessETHBV.cpp", "core/src/processes/ProcessETSocont.cpp", "core/src/processes/ProcessETExponential.cpp", "core/src/processes/ProcessETOpenWater.cpp", "core/src/processes/ProcessETGR4J.cpp"]}
{"id": "C18", "title": "Infiltration is bounded by the water available", "statement": "Every infiltration law returns a rate between 0 and the available surface water, everything into a dry store, nothing into a full one, and the complement computed by the companion rest process gives back exactly the available water.", "quantifier": "all available water >= 0, filling ratios in [0,1], exponents > 0", "why_tests_cant": "must hold for every content, rate, capacity and time step (a continuum), not for sampled values", "anchors": ["core/src/processes/ProcessInfiltrationSocont.cpp", "core/src/processes/ProcessInfiltrationHBV.cpp", "core/src/processes/ProcessOutflowRest.cpp"]}
{"id": "C19", "title": "The GR4J production store stays within its bounds", "statement": "GR4J infiltration is between 0 and the net rain and never fills the store above X1; evaporation is between 0 and both the demand and the content; percolation is between 0 and the content; the discrete production step returns exactly net rain - infiltration + percolation to routing.", "quantifier": "all contents in [0,X1], X1 > 0, all net rain/demand >= 0", "why_tests_cant": "must hold for every content, rate, capacity and time step (a continuum), not for sampled values", "anchors": ["core/src/processes/helpers/GR4JFormulas.h", "core/src/processes/ProcessProductionGR4J.cpp", "core/src/processes/ProcessInterceptionGR4J.cpp"]}
{"id": "C20", "title": "Interception neutralises rain against demand exactly once", "statement": "GR4J interception evaporates min(P, E); the remaining rain P - min and the remaining demand E - min are both >= 0 and at least one of them is zero.", "quantifier": "all P, E >= 0", "why_tests_cant": "must hold for every content, rate, capacity and time step (a continuum), not for sampled values", "anchors": ["core/src/processes/ProcessInterceptionGR4J.cpp"]}
{"id": "C21", "title": "Melt laws are non-negative, thresholded and monotone", "statement": "Degree-day melt rates are >= 0, zero at or below the melting temperature (or when the pack is inaccessible), exactly proportional to the temperature excess above it and non-decreasing with temperature.", "quantifier": "all temperatures, melt factors >= 0, all melt laws", "why_tests_cant": "must hold for every content, rate, capacity and time step (a continuum), not for sampled values", "anchors": ["core/src/processes/ProcessMeltDegreeDay.cpp", "core/src/processes/ProcessMeltDegreeDayAspect.cpp", "core/src/processes/ProcessMeltTemperatureIndex.cpp", "core/src/processes/ProcessMeltCemaNeige.cpp"]}
{"id": "C22", "title": "CemaNeige cold content and melt", "statement": "The CemaNeige thermal state is never positive, melt only happens when it is zero and the air is above the melting temperature, and the melt never exceeds the degree-day potential and is at least a tenth of it.", "quantifier": "all temperature series", "why_tests_cant": "an invariant over unbounded series", "anchors": ["core/src/processes/ProcessMeltCemaNeige.cpp"]}
{"id": "C23", "title": "Snowpack liquid water: retention and refreezing", "statement": "The snowpack releases exactly the liquid water above its holding capacity, refreezing only acts below the melting temperature, and moving water between the liquid and frozen stores of one snowpack conserves their sum.", "quantifier": "all contents and temperatures", "why_tests_cant": "must hold for every content, rate, capacity and time step (a continuum), not for sampled values", "anchors": ["core/src/processes/ProcessOutflowSnowHolding.cpp", "core/src/processes/ProcessRefreezeDegreeDay.cpp"]}
{"id": "C24", "title": "Outflow and runoff laws never release more than available", "statement": "Linear, direct, threshold, rest and Socont outflow laws yield non-negative rates; the direct/threshold/rest laws release at most the available water over the step; the power-law runoff is non-decreasing in content.", "quantifier": "all contents >= 0, parameters in range, dt > 0", "why_tests_cant": "must hold for every content, rate, capacity and time step (a continuum), not for sampled values", "anchors": ["core/src/processes/ProcessOutflowLinear.cpp", "core/src/processes/ProcessOutflowThreshold.cpp", "core/src/processes/ProcessOutflowRest.cpp", "core/src/processes/ProcessRunoffHBV.cpp", "core/src/processes/ProcessRunoffSocont.cpp"]}
{"id": "C25", "title": "Percolation and capillary exchange bounds", "statement": "Constant percolation never asks for a negative amount; HBV capillary rise into each target is between 0 and cflux, vanishes at saturation, and the total over weighted targets does not exceed cflux.", "quantifier": "all contents, capacities, weights summing to at most 1", "why_tests_cant": "must hold for every content, rate, capacity and time step (a continuum), not for sampled values", "anchors": ["core/src/processes/ProcessPercolationConstant.cpp", "core/src/processes/ProcessCapillaryHBV.cpp"]}
{"id": "C26", "title": "Unit hydrograph ordinates are a partition of unity", "statement": "For every base time X4 > 0 the GR unit hydrograph ordinates (UH1 and UH2) are non-negative and sum to exactly 1; likewise the HBV triangular weights for every MAXBAS > 0.", "quantifier": "all real X4 > 0 / MAXBAS > 0, of any size", "why_tests_cant": "the number and values of ordinates vary with a real parameter", "anchors": ["core/src/processes/helpers/GRUnitHydrograph.h", "core/src/processes/ProcessRoutingHBV.cpp"]}
{"id": "C27", "title": "Unit hydrographs deliver every drop exactly once", "statement": "Routing any input series through a unit hydrograph buffer: outputs so far plus water still in the buffer equals inputs so far; after the input stops, everything has been delivered within the hydrograph's length.", "quantifier": "all input series of any length", "why_tests_cant": "induction over unbounded histories", "anchors": ["core/src/processes/ProcessRoutingGR4J.cpp", "core/src/processes/helpers/GRUnitHydrograph.h"]}
{"id": "C28", "title": "GR4J routing water balance", "statement": "Over a routing step the routing store plus the unit hydrograph contents changes by inflow plus groundwater exchange minus the discharge; the store stays in [0, X3] and the discharge is non-negative.", "quantifier": "all stores, inflows, parameters X2 real, X3 > 0", "why_tests_cant": "must hold for every content, rate, capacity and time step (a continuum), not for sampled values", "anchors": ["core/src/processes/ProcessRoutingGR4J.cpp"]}
{"id": "C29", "title": "GR6J exponential store", "statement": "The GR6J exponential store outflow is non-negative, continuous across its three regimes, and the store level after outflow accounts exactly for what is released.", "quantifier": "all store levels (also negative) and X6 > 0", "why_tests_cant": "must hold for every content, rate, capacity and time step (a continuum), not for sampled values", "anchors": ["core/src/processes/ProcessRoutingGR6J.cpp", "core/src/processes/helpers/GR6JFormulas.h"]}
{"id": "C30", "title": "HBV routing releases each inflow over MAXBAS and conserves it", "statement": "The HBV transformation function releases every inflow completely within ceil(MAXBAS) steps; scheduled water plus content is conserved step after step.", "quantifier": "all inflow series, all MAXBAS > 0", "why_tests_cant": "induction over unbounded histories", "anchors": ["core/src/processes/ProcessRoutingHBV.cpp"]}
{"id": "C31", "title": "Lateral snow transfers conserve snow volume", "statement": "Snow sliding from a unit to its neighbours arrives as the same volume; a pack below its holding depth sends nothing, a transfer never takes the pack below the holding depth, and the shares of the receivers sum to what was sent.", "quantifier": "all areas, slopes, depths, receiver sets", "why_tests_cant": "must hold for every content, rate, capacity and time step (a continuum), not for sampled values", "anchors": ["core/src/processes/ProcessLateralSnowSlide.cpp", "core/src/processes/ProcessLateral.cpp"]}
{"id": "C32", "title": "Land-cover fractions of a unit always sum to one", "statement": "After a valid start, any sequence of accepted land-cover changes keeps every fraction in [0,1] and the sum equal to 1 (within the code's tolerance); the generic cover absorbs the difference.", "quantifier": "all sequences of change requests", "why_tests_cant": "histories of any length", "anchors": ["core/src/spatial/HydroUnit.cpp: ChangeLandCoverAreaFraction, FixLandCoverFractionsTotal, IsValid"]}
{"id": "C33", "title": "Changing land-cover extents conserves stored water", "statement": "When land changes hands between a cover and the generic cover, the area-weighted liquid water and snow of the unit is unchanged.", "quantifier": "all fractions, contents, cover structures", "why_tests_cant": "must hold for every content, rate, capacity and time step (a continuum), not for sampled values", "anchors": ["core/src/spatial/HydroUnit.cpp: TransferLandCoverContent"]}
{"id": "C34", "title": "A rejected land-cover change leaves the unit unchanged", "statement": "A land-cover change request that is refused (out of range, unknown cover, generic cover too small or missing) has no effect on fractions or contents.", "quantifier": "all requests and unit states", "why_tests_cant": "all rejected requests", "anchors": ["core/src/spatial/HydroUnit.cpp: ChangeLandCoverAreaFraction"]}
{"id": "C35", "title": "Scheduled actions run exactly once, in date order", "statement": "Whatever the order in which actions are registered, each dated action item is applied exactly once, at the first time step whose date reaches its date, never earlier, and items are applied in non-decreasing date order.", "quantifier": "all sets of actions and all increasing date sequences", "why_tests_cant": "all registration orders and schedules", "anchors": ["core/src/actions/ActionsManager.cpp", "core/src/actions/Action.cpp"]}
{"id": "C36", "title": "Recurring actions fire on the declared calendar day", "statement": "A recurring action fires at the steps whose date falls on its declared month and day and at no other step.", "quantifier": "all month/day lists and dates", "why_tests_cant": "all calendars", "anchors": ["core/src/actions/Action.cpp: ApplyIfRecursive, AddRecursiveDate"]}
{"id": "C37", "title": "Snow-to-ice action conserves mass", "statement": "Transforming the glacier snow into ice moves all snow of the glacier's snowpack to ice, leaving their sum unchanged.", "quantifier": "all contents", "why_tests_cant": "must hold for every content, rate, capacity and time step (a continuum), not for sampled values", "anchors": ["core/src/actions/ActionGlacierSnowToIceTransformation.cpp"]}
{"id": "C38", "title": "Glacier evolution conserves ice volume bookkeeping", "statement": "Area-scaling and delta-h glacier evolution move ice without creating or destroying it: they change the extents to those of the looked-up row and rescale the ice depths so that depth x extent x unit area keeps its total (delta-h: each unit gets the share the row gives it); the extent never becomes negative, the row stays inside the table and advances monotonically with ice loss.", "quantifier": "all look-up tables and ice states", "why_tests_cant": "must hold for every content, rate, capacity and time step (a continuum), not for sampled values", "anchors": ["core/src/actions/ActionGlacierEvolutionAreaScaling.cpp", "core/src/actions/ActionGlacierEvolutionDeltaH.cpp"]}
{"id": "C39", "title": "The clock visits every time step exactly once", "statement": "A run over [start, end] with step dt processes exactly floor((end-start)/dt)+1 steps at dates start + i dt, the number of rows allocated for the results, and no row is skipped or written twice.", "quantifier": "all start <= end and dt > 0", "why_tests_cant": "all periods", "anchors": ["core/src/base/TimeMachine.cpp", "core/src/base/ModelHydro.cpp: Run", "core/src/base/Logger.cpp: SetDate, Record, Increment"]}
{"id": "C40", "title": "Forcing read at a step is the value dated at that step", "statement": "At every step of a run, each forcing series delivers the value whose date is the current model date.", "quantifier": "all start offsets, time units and series", "why_tests_cant": "all alignments", "anchors": ["core/src/base/TimeSeriesData.cpp: SetCursorToDate, AdvanceOneTimeStep", "core/src/base/ModelHydro.cpp: InitializeTimeSeries, UpdateForcing"]}
{"id": "C41", "title": "Accepted forcing covers the modelling period", "statement": "A forcing series is accepted only if it is valid, not already provided for that variable and spans the whole modelling period; then reading it during the run and its spin-up never goes out of range.", "quantifier": "all series and periods", "why_tests_cant": "all period/series combinations", "anchors": ["core/src/base/ModelHydro.cpp: AddTimeSeries", "core/src/base/TimeSeriesData.cpp"]}
{"id": "C42", "title": "Calendar conversions round-trip", "statement": "Converting a calendar date-time to the model's day number and back returns the same date-time, and day numbers are strictly increasing in the calendar order; the day of year equals the days elapsed since 1 January plus one.", "quantifier": "all Gregorian dates, all times of day", "why_tests_cant": "all dates of the calendar including century leap rules", "anchors": ["core/src/base/UtilsDateTime.cpp: ToMJD, FromMJD", "core/src/base/TimeMachine.cpp: GetCurrentDayOfYear"]}
{"id": "C43", "title": "Spin-up leaves clock, calendar actions and extents untouched", "statement": "A spin-up replays the first steps without recording results and without firing any action or parameter update, then the run restarts at the start date with the forcing re-aligned and the initial land-cover extents.", "quantifier": "all spin-up lengths and models", "why_tests_cant": "all spin-up lengths", "anchors": ["core/src/base/ModelHydro.cpp: RunSpinup, RewindAfterSpinup"]}
{"id": "C44", "title": "Re-running after a reset reproduces the first run", "statement": "Run, reset, run gives identical results to the first run for every model, forcing and parameter set.", "quantifier": "all models, states and run lengths", "why_tests_cant": "hidden state over whole histories", "anchors": ["core/src/base/ModelHydro.cpp: Reset", "core/src/bricks/Snowpack.cpp: Reset", "core/src/bricks/Brick.cpp: Reset", "core/src/base/ParametersUpdater.cpp"]}
{"id": "C45", "title": "Setting a parameter reaches exactly the intended components", "statement": "Setting a parameter by component name, comma-separated list or type changes exactly the matching parameters in every structure variant that has the component, nothing else, and reports failure when nothing matches.", "quantifier": "all model structures, names and values", "why_tests_cant": "all structures and name sets", "anchors": ["core/src/base/SettingsModel.cpp: SetParameterValue"]}
{"id": "C46", "title": "Table look-up finds the right entry", "statement": "Looking up a value in a sorted (ascending or descending) table returns an index whose entry equals the value within the tolerance whenever one exists, out-of-range when the value lies outside, and not-found otherwise.", "quantifier": "all sorted tables and values", "why_tests_cant": "all table sizes", "anchors": ["core/src/base/Utils.cpp: FindT"]}
{"id": "C47", "title": "Dated, monthly and yearly parameters take the declared value", "statement": "A time-varying parameter has, at each step, the value declared for that step's year, month or date, and keeps its last value otherwise.", "quantifier": "all value tables and date sequences", "why_tests_cant": "all calendars and sequences", "anchors": ["core/src/base/ParameterModifier.cpp", "core/src/base/ParametersUpdater.cpp"]}
{"id": "C48", "title": "Each unit gets the tightest matching structure", "statement": "A hydro unit is assigned the structure variant whose land covers are exactly those present in the unit if there is one, otherwise the smallest variant that contains them all.", "quantifier": "all variant sets and units", "why_tests_cant": "all set families", "anchors": ["core/src/base/ModelBuilder.cpp: AssignHydroUnitStructures"]}
{"id": "C49", "title": "Result labels are unique and values land under their own label", "statement": "The list of recorded labels contains each label of every structure variant exactly once, in first-seen order, and each recorded column holds the value of the component named by its label.", "quantifier": "all structures", "why_tests_cant": "all structures", "anchors": ["core/src/base/SettingsModel.cpp: GetHydroUnitLogLabels, GetSubBasinLogLabels", "core/src/base/ModelBuilder.cpp: ConnectLoggerToValues"]}
{"id": "C50", "title": "Reported totals agree with recorded series", "statement": "Total discharge, total evapotranspiration and total storage change reported after a run are the (area- and fraction-weighted) sums and differences of the recorded series; a component absent from a unit contributes nothing.", "quantifier": "all recorded tables", "why_tests_cant": "all tables", "anchors": ["core/src/base/Logger.cpp: GetTotalOutletDischarge, GetTotalET, GetTotalWaterStorageChanges"]}
{"id": "C51", "title": "Lateral connections and unit properties are validated", "statement": "A lateral connection is accepted iff its fraction is in ]0,1]; a unit property requested in a supported unit is converted consistently (converting there and back is the identity).", "quantifier": "all fractions, values and unit pairs", "why_tests_cant": "all values", "anchors": ["core/src/spatial/HydroUnit.cpp: AddLateralConnection", "core/src/spatial/HydroUnitProperty.cpp"]}
{"id": "C52", "title": "Only known names build components", "statement": "Every documented solver, process, splitter, brick and content type name (and alias) is accepted and maps to one fixed component; every other name is refused with an error rather than silently replaced.", "quantifier": "all strings", "why_tests_cant": "all strings", "anchors": ["core/src/base/Solver.cpp: Factory", "core/src/processes/Process.cpp: Factory, RegisterSettings", "core/src/bricks/BrickTypes.cpp", "core/src/base/ContentTypes.cpp", "core/src/base/TimeSeries.cpp: MatchVariableType"]}
{"id": "C53", "title": "Tolerance comparisons are coherent", "statement": "For every tolerance, exactly one of greater-than, nearly-equal and less-than holds between two numbers, nearly-equal is reflexive and symmetric, and the or-equal variants are the negations of the strict ones.", "quantifier": "all numbers and tolerances >= 0", "why_tests_cant": "must hold for every content, rate, capacity and time step (a continuum), not for sampled values", "anchors": ["core/src/base/NumericConstants.h"]}
{"id": "C54", "title": "Forcing overrides last one step", "statement": "A value overriding a forcing within a step is what every reader of that forcing in the unit sees until the step ends, and the next step reads the series again.", "quantifier": "all override sequences", "why_tests_cant": "all interleavings of overrides and steps", "anchors": ["core/src/base/Forcing.cpp", "core/src/base/ModelHydro.cpp: UpdateForcing", "core/src/processes/ProcessInterceptionGR4J.cpp"]}
{"id": "C55", "title": "The exponential Euler scheme is exact for linear outflow", "statement": "With the exponential Euler solver a reservoir whose total outflow is proportional to its content follows the exact solution, and in general the reported rates are non-negative and lead exactly to the computed end content.", "quantifier": "all outflow laws, contents, inflows and steps", "why_tests_cant": "must hold for every content, rate, capacity and time step (a continuum), not for sampled values", "anchors": ["core/src/base/SolverExponentialEuler.cpp: ComputeBrickRates"]}
{"id": "C56", "title": "Sublimation and snow-to-ice laws are bounded", "statement": "Sublimation rates lie between 0 and the prescribed rate and vanish without snow; the seasonal snow-to-ice transformation takes between 0 and twice the basal coefficient of the snow per day, with opposite seasons in the two hemispheres.", "quantifier": "all parameters, days and contents", "why_tests_cant": "must hold for every content, rate, capacity and time step (a continuum), not for sampled values", "anchors": ["core/src/processes/ProcessSublimationConstant.cpp", "core/src/processes/ProcessSublimationPET.cpp", "core/src/processes/ProcessTransformSnowToIceSwat.cpp"]}
{"id": "C57", "title": "Building a model wires exactly the declared network", "statement": "For a structure whose names are not repeated within a unit or within the sub-basin, initialising the model succeeds exactly if every type is known, every process works on a store its brick has, and every parent and target exists and takes the declared content; the built model then has exactly the declared outputs, in order, each attached at both ends and going to the component its target name denotes (the unit's own one first, then the sub-basin's), spread over the basin area when it leaves the unit and weighted by the cover extent when it leaves a land cover for a store of the whole unit; evapotranspiration goes to the atmosphere; lateral snow goes to every snowpack of every connected unit with the share of the connection; infiltration and capillary processes look at the bricks they feed.", "quantifier": "all structures, numbers of units, areas and lateral connections", "why_tests_cant": "must hold for every content, rate, capacity and time step (a continuum), not for sampled values", "anchors": ["core/src/base/ModelBuilder.cpp", "core/src/base/SettingsModel.h", "core/src/spatial/HydroUnit.cpp: GetBrick"]}
{"id": "C58", "title": "Generated base structures route rain and snow to every cover exactly once", "statement": "For every list of distinctly named land covers and every combination of the generator options (snow, water retention, rain to snowpack, canopies, refreezing, snow-to-ice, redistribution, sublimation), generating the base structure succeeds exactly if the used processes exist and options that need retention have it; the structure is then exactly the one asked for, it builds without dangling references, and in the built model every cover receives the full rain depth through exactly one entry (its canopy, else its snowpack if the rain is routed there, else the cover) and the full snow depth in its own snowpack, whose water is released to that cover.", "quantifier": "all cover lists and option combinations, all numbers of units", "why_tests_cant": "all lists of covers and options", "anchors": ["core/src/base/SettingsModel.cpp: GeneratePrecipitationSplitters, AddLandCoverBrick, GenerateCanopyInterception, GenerateSnowpacks, GenerateSnowpacksWithWaterRetention, AddSnowpackRefreezing, AddSnowIceTransformation, AddSnowRedistribution, AddSnowpackSublimation", "python/src/hydrobricks/models/model_settings.py: generate_base_structure"]}
{"id": "C59", "title": "Parameter values reach every component of a built model", "statement": "For every set of structure variants and hydro units (distinct variant ids, distinct brick names per variant), once a model is built, any sequence of parameter settings - successful or failing - and parameter updates succeeds, and afterwards every brick, process and splitter of every unit and of the sub-basin uses exactly the values its own settings (its own variant's) hold at that moment; updating with any settings of the same shape gives exactly the model that would be built from them, except that a glacier once given infinite ice keeps it.", "quantifier": "all settings, unit lists, histories of set and update calls", "why_tests_cant": "all histories and all structures", "anchors": ["core/src/base/ModelHydro.cpp: UpdateParameters", "core/src/base/ModelBuilder.cpp: UpdateSubBasinParameters, UpdateHydroUnitsParameters, CreateModelComponents", "core/src/processes/*: SetParameters", "core/src/bricks/Glacier.cpp: SetParameters", "core/src/fluxes/Splitter*.cpp: SetParameters"]}
{"id": "C60", "title": "Dates given as text are read as written", "statement": "For every announced date format (or a guessed one) and every way of writing it covers, the text of every valid date-time between 1900 and 2100 is read as exactly that date-time, and so are the start and end of a run; any text accepted follows one of these ways with every field in its range and yields the day count of its fields, always a date between 1900 and 2100; a date (without time) written day first is never misread when a year-first format is announced, nor the other way round.", "quantifier": "all texts, formats and date-times", "why_tests_cant": "all strings", "anchors": ["core/src/base/UtilsDateTime.cpp: ParseToMJD, ParseExact, ParseDateOnly, PlatformParseTm", "core/src/base/TimeMachine.cpp: Initialize"]}
{"id": "C61", "title": "The basin is set up as declared", "statement": "Any sequence of declarations gives each hydro unit exactly the covers and properties declared for it, in order; with distinct ids the basin built from them has the declared units in order with their areas (its area being their sum) and properties, and each unit has exactly the lateral connections declared from it, leading to the unit of the declared id, the build being refused exactly if a connection between known units has a fraction outside ]0, 1]; the model is accepted exactly if there is a unit, every part is valid, every area is positive and the cover extents of each unit (1 where undeclared) add up to 1 within 1e-4; the extents in use are then the declared ones, except at most one cover per unit corrected by at most 1e-4, and add up to 1 within rounding; the total of a forcing is the area-weighted mean of the units' totals.", "quantifier": "all sequences of declarations, all basins, models and forcings", "why_tests_cant": "must hold for every content, rate, capacity and time step (a continuum), not for sampled values", "anchors": ["core/src/base/SettingsBasin.cpp", "core/src/spatial/SubBasin.cpp: BuildBasin, AssignFractions, IsValid, AddHydroUnit, GetHydroUnitById", "core/src/spatial/HydroUnit.cpp: SetProperties, GetPropertyDouble, GetPropertyString, AddLateralConnection, IsValid", "core/src/base/TimeSeriesDistributed.cpp: GetTotal"]}
{"id": "C62", "title": "Accepted models have everything their components read", "statement": "For a structure without repeated names, initialisation succeeds exactly if the structure builds and is complete: at least one unit, positive areas, each process with its number of outputs, its forcings, the unit properties it reads and the companion processes it relies on, each brick with a process on its own store, each splitter with its number of outputs, no forcing-driven process in the sub-basin. A unit then has exactly the forcings asked for by its components; in a run no component follows a missing forcing or input exactly if the series driving its processes and splitters are loaded and its splitters were given their forcings and inputs, which generated structures always are; and every process computes one rate per output.", "quantifier": "all structures, unit properties, forcing lists and sets of loaded series", "why_tests_cant": "must hold for every content, rate, capacity and time step (a continuum), not for sampled values", "anchors": ["core/src/base/ModelHydro.cpp: Initialize, AttachTimeSeriesToHydroUnits", "core/src/base/ModelBuilder.cpp: BuildForcingConnections, CreateHydroUnitBrick", "core/src/processes/*: IsValid, AttachForcing, RegisterProcessSettings, SetHydroUnitProperties", "core/src/fluxes/Splitter*.cpp: IsValid, AttachForcing, Compute", "core/src/bricks/*: IsValid", "core/src/spatial/HydroUnit.cpp: IsValid", "core/src/spatial/SubBasin.cpp: IsValid"]}
{"id": "C63", "title": "A built model conserves water over every run", "statement": "For every declared structure the builder accepts whose outputs are only sent to bricks handled later in the time step (instantaneous ones excepted) and whose areas fit (positive unit areas, land-cover extents between 0 and 1, covers and surface components fed only from the same extent, partial surface components feeding only such), whatever the process laws, forcings and solver: after any number of completed steps without a report of negative content, the change of the stored volume (depth times covered area, summed over all stores that are not inexhaustible) equals the volume handed in by splitters and inexhaustible stores, minus basin area times the recorded outlet discharge, minus the volume lost to the atmosphere or elsewhere, plus groundwater exchange, up to 1e-8 per unit of area and step. The network that is run is the one assembled from the built components, nothing about it is assumed.", "quantifier": "all declared structures, areas, extents, process laws, solvers, time steps, initial states and run lengths", "why_tests_cant": "must hold for every content, rate, capacity and time step (a continuum), not for sampled values", "anchors": ["core/src/base/Processor.cpp: ConnectToElementsToSolve, ProcessTimeStep", "core/src/base/ModelBuilder.cpp", "core/src/bricks/LandCover.cpp: SetAreaFraction, NeedsSolver", "core/src/bricks/SurfaceComponent.cpp: SetAreaFraction, IsNull", "core/src/fluxes/Flux*.cpp"]}
{"id": "C64", "title": "Predefined models build and conserve water, whatever the land covers and options", "statement": "For every list of land covers with usable names (distinct, no reserved word, also after appending the suffixes the models use), containing a soil cover, and for every documented combination of option values (with ice and melt:cemaneige excluded), Socont, HBV-96, GR4J and GR6J write all their structure variants without an error, each variant is exactly the described structure, and every model whose units use these variants can be built. Without snow redistribution, with positive areas and extents between 0 and 1, every run of it without a report of negative content conserves water (as C63), whatever the laws of the processes, the forcings, the solver and the time step.", "quantifier": "all land-cover lists, option values, assignments of variants to units, areas, extents, process laws, solvers, time steps, initial states and run lengths", "why_tests_cant": "must hold for every content, rate, capacity and time step (a continuum), not for sampled values", "anchors": ["python/src/hydrobricks/models/socont.py", "python/src/hydrobricks/models/hbv.py", "python/src/hydrobricks/models/hbv_96.py", "python/src/hydrobricks/models/gr4j.py", "python/src/hydrobricks/models/gr6j.py", "python/src/hydrobricks/models/model.py: _generate_one_structure, _set_structure_process, _split_glacier_variants", "python/src/hydrobricks/modules/glacier.py: GSM.add_bricks", "core/src/base/SettingsModel.cpp"]}
{"id": "C65", "title": "Predefined models initialise and never miss data when the documented inputs are given", "statement": "For Socont (one land cover besides glaciers), HBV-96 (at least one soil-bearing cover) and GR4J/GR6J (one cover), every documented combination of options (refreezing only with melt:degree_day), every choice of structure variant per unit, and every basin: if each unit has a positive area and the properties the chosen options use (slope, aspect, elevation), and the forcing series the chosen options use are loaded (precipitation and PET; temperature with snow; radiation for the temperature-index melt; the daily extremes for CemaNeige below 1500 m), then the model initialises without an error and no process or splitter of any unit follows a null forcing, target or property pointer in a step.", "quantifier": "all land-cover lists, option values, basins, assignments of variants to units, and sets of loaded series", "why_tests_cant": "must hold for every content, rate, capacity and time step (a continuum), not for sampled values", "anchors": ["python/src/hydrobricks/models/socont.py", "python/src/hydrobricks/models/hbv_96.py", "python/src/hydrobricks/models/gr4j.py", "python/src/hydrobricks/models/gr6j.py", "core/src/base/ModelHydro.cpp: Initialize, IsValid, AttachTimeSeriesToHydroUnits", "core/src/base/SettingsModel.cpp: GeneratePrecipitationSplitters"]}
{"id": "C66", "title": "Process laws compute the documented equations", "statement": "For every state of the stores and every value of forcings and parameters in the documented ranges, the rate of each process is the one given by the equation in its reference documentation (class comment): evapotranspiration (linear, power law, Socont, exponential, HBV, open water, GR4J), infiltration (Socont, HBV, GR4J), percolation and production of GR4J, capillary rise, outflows, Socont and HBV runoff with their units, melt, refreezing, sublimation, snow-to-ice transformation, CemaNeige, SnowSlide and Frey redistribution; over a whole run on any input series, the routing stores and discharges of GR4J, GR6J and HBV follow the documented convolution and recursion.", "quantifier": "all store levels, forcings, parameters in range, and whole input series for the routing", "why_tests_cant": "must hold for every content, rate, capacity and time step (a continuum), not for sampled values", "anchors": ["core/src/processes/Process*.h (class comments) and .cpp", "core/src/fluxes/Splitter*.h", "core/src/processes/helpers/GRUnitHydrograph.h", "core/src/processes/helpers/GR6JFormulas.h"]}
{"id": "C67", "title": "The water balance closes with the precipitation", "statement": "For every predefined model (Socont, HBV-96, GR4J, GR6J) without snow redistribution, any unit areas and any land-cover fractions that sum to 1 in each unit, any process laws, parameters, forcings and solver, over every run as long as no negative content is reported: change of the volume stored = precipitation on the basin - basin area x reported discharge - evapotranspiration + what inexhaustible stores (glacier ice) supply + groundwater exchange, up to 1e-8 per unit of area and time step. With the rain/snow separations as computed and correction factors of 1, the precipitation is the forcing.", "quantifier": "all land covers, options, unit areas, fractions, laws, weather series, solvers, run lengths", "why_tests_cant": "must hold for every content, rate, capacity and time step (a continuum), not for sampled values", "anchors": ["core/src/base/Processor.cpp (ProcessTimeStep)", "core/src/base/ModelBuilder.cpp", "core/src/fluxes/Splitter*.cpp (Compute)", "python/src/hydrobricks/models/{model,socont,hbv,gr4j,gr6j}.py"]}
{"id": "C68", "title": "The predefined models have the flow diagrams of their documentation", "statement": "For every predefined model (Socont, HBV-96, GR4J, GR6J), any usable land covers and any documented options: in every built model, each hydro unit has the land covers its variant is for, and water moves exactly along the documented arrows - which storage, by which process, to which storage, the outlet or the air (snowpack with or without retention and refreezing, canopy, glacier to the two storages of the sub-basin, infiltration and excess, soils, upper and lower zone, production store, unit hydrographs) - and along no others, snow redistribution aside; rain and snow fall exactly where documented; the sub-basin storages drain to the outlet.", "quantifier": "all land covers, options, sets of units", "why_tests_cant": "must hold for every content, rate, capacity and time step (a continuum), not for sampled values", "anchors": ["python/src/hydrobricks/models/{model,model_settings,socont,hbv,hbv_96,gr4j,gr6j}.py", "python/src/hydrobricks/modules/glacier.py", "core/src/base/SettingsModel.cpp", "core/src/base/ModelBuilder.cpp"]}
{"id": "C69", "title": "Groundwater exchange is applied once per time step", "statement": "A routing process with groundwater exchange gains or loses, in every time step, the exchange of one evaluation of its equation - whatever the solver, the number of its trial stages and the other processes.", "quantifier": "all models, laws with a steady exchange, states, solvers", "why_tests_cant": "must hold for every content, rate, capacity and time step (a continuum), not for sampled values", "anchors": ["core/src/processes/ProcessRoutingGR4J.cpp:GetRates", "core/src/base/Processor.cpp", "core/src/base/SolverHeunExplicit.cpp", "core/src/base/SolverRK4.cpp", "core/src/base/SolverSequential.cpp"]}
{"id": "C70", "title": "GR4J and GR6J discharge what the published recursion gives", "statement": "A discrete GR4J or GR6J model set up from its description (no snow, one land cover other than a glacier) and run with daily steps discharges, each day, the area-weighted mean of the published daily recursion (interception, production store, percolation, unit hydrographs, exchange, routing store), amounts of at most 1e-8 mm dropped and, for GR4J only, the discharge limited to the water held before the exchange (GR6J lets its container go negative); GR4J is exactly the published one when no amount is that small and X2 is at most 0.4 X3; in any case, for X2 between -4/7 X3 and 0.4 X3, the discharge of day t is within 23 (t+1) g^t 1e-8 mm of the published one, g = 1 + 3.5 max(0, X2)/X3. GR6J, for X2 of at least -2 X3, is within 6 (t+1) (1 + (t+1)|X2|/X3) g^(t+1) 1e-8 + (t+1) X6 1e-6 mm of the published one, g = 1 + max(0, X2)/X3.", "quantifier": "all basins (any number of units), weather and evapotranspiration series, parameters, initial levels, solvers, run lengths", "why_tests_cant": "must hold for every content, rate, capacity and time step (a continuum), not for sampled values", "anchors": ["python/src/hydrobricks/models/gr4j.py", "python/src/hydrobricks/models/gr6j.py", "core/src/processes/ProcessInterceptionGR4J.cpp", "core/src/processes/ProcessProductionGR4J.cpp", "core/src/processes/ProcessETGR4J.cpp", "core/src/processes/ProcessRoutingGR4J.cpp", "core/src/processes/ProcessRoutingGR6J.cpp", "core/src/base/Processor.cpp:ProcessTimeStep", "core/src/containers/WaterContainer.cpp"]}
{"id": "C71", "title": "A storage never releases more than it holds", "statement": "In one time step a storage that must not go negative never releases more than its content at the beginning of the step plus what it received during the step; no negative content is ever reported.", "quantifier": "all models, laws, weather, states, steps", "why_tests_cant": "must hold for every content, rate, capacity and time step (a continuum), not for sampled values", "anchors": ["core/src/containers/WaterContainer.cpp:ApplyConstraints", "core/src/containers/WaterContainer.cpp:Finalize", "core/src/base/Processor.cpp:ProcessTimeStep", "core/src/processes/ProcessMeltDegreeDay.cpp", "core/src/processes/ProcessRefreezeDegreeDay.cpp", "core/src/fluxes/FluxToBrickInstantaneous.cpp", "core/src/fluxes/FluxForcing.cpp"]}
{"id": "C72", "title": "What happens in one unit does not depend on the others", "statement": "In a model whose hydro units exchange no water, the storages and fluxes of one unit evolve the same way whatever the contents, the weather, the parameters and the laws of the other units.", "quantifier": "all models, parts of a model that receive nothing from the rest, laws, solvers, pairs of states alike in the part, numbers of steps", "why_tests_cant": "must hold for every content, rate, capacity and time step (a continuum), not for sampled values", "anchors": ["core/src/base/Processor.cpp:ProcessTimeStep", "core/src/base/Processor.cpp:EnforceConstraints", "core/src/base/SolverSequential.cpp", "core/src/base/SolverEulerExplicit.cpp", "core/src/base/SolverHeunExplicit.cpp", "core/src/base/SolverRK4.cpp", "core/src/containers/WaterContainer.cpp:ApplyConstraints"]}
{"id": "C73", "title": "Setting up a predefined model gives the declared model over the declared period", "statement": "With documented options, a basin that declares the model's land covers, the properties and series asked for, a period written in a documented way and a known solver, setting up Socont, HBV-96, GR4J or GR6J succeeds: every unit has its declared area, land covers with their declared shares, connections, and the smallest structure with its covers; the period has the declared start, end and step, one row per step and the spin-up steps that fit; no component follows a null pointer; and a run visits every step of the period. Whatever the settings, a model that is set up has a positive step, an end not before its start, a known solver, units of positive area, and no more spin-up steps than rows; settings that break this are refused.", "quantifier": "all land covers, options, basins, periods, solvers; for the guarantees and refusals all settings", "why_tests_cant": "must hold for every content, rate, capacity and time step (a continuum), not for sampled values", "anchors": ["core/src/base/ModelHydro.cpp:InitializeWithBasin", "core/src/base/ModelHydro.cpp:Initialize", "core/src/base/ModelBuilder.cpp:AssignHydroUnitStructures", "core/src/base/SettingsModel.cpp:IsValid", "core/src/base/TimeMachine.cpp:IsValid", "core/src/base/Processor.cpp:ValidateFluxTopology", "python/src/hydrobricks/models/model.py:setup"]}
{"id": "C74", "title": "A predefined model set up from declared inputs closes its water balance in every run", "statement": "With documented options (no snow redistribution), a basin declaring the model's land covers with shares adding up to 1, the properties and series asked for, a period and a solver, Socont, HBV-96, GR4J and GR6J are set up, and in every run of the resulting model, for every weather with correction factors of 1, the volume stored changes by the precipitation on the basin less the basin area times the reported discharge less what evaporates, plus what inexhaustible stores supply and the groundwater exchange, up to 1e-8 per unit of area and step, as long as no negative content is reported.", "quantifier": "all land covers, options, basins, periods, solvers, weathers, process laws, numbers of steps", "why_tests_cant": "must hold for every content, rate, capacity and time step (a continuum), not for sampled values", "anchors": ["core/src/base/ModelHydro.cpp:InitializeWithBasin", "core/src/base/ModelHydro.cpp:Run", "core/src/base/ModelBuilder.cpp", "core/src/base/Processor.cpp:ProcessTimeStep", "python/src/hydrobricks/models/model.py:setup"]}
{"id": "C75", "title": "A results file gives back what was recorded", "statement": "After a run, the results file holds the recorded dates, unit ids, areas and series; reading a component by its label (or by a shortened name that only one label ends with) returns, for every hydro unit and every requested date (all, one, or a period), the value recorded under that label; other names and dates are refused; the area of a land cover is its recorded fraction of the unit. The total snow water equivalent of a unit is the area-weighted mean over its land covers (a cover without snowpack counts with no snow, one the unit does not have does not count), and the mean over the catchment times its area is the snow of all units, equal to the snow storage of the model's own water balance at the last date.", "quantifier": "all recorded tables (labels, covers, units, dates, absent cells), requested components and periods", "why_tests_cant": "must hold for every content, rate, capacity and time step (a continuum), not for sampled values", "anchors": ["core/src/base/Logger.cpp:DumpOutputs", "core/src/base/ResultWriter.cpp:WriteNetCDF", "core/src/base/FileNetcdf.cpp:PutVar", "python/src/hydrobricks/results.py:Results"]}
{"id": "C76", "title": "Parameter sets: names, ranges, constraints and random draws", "statement": "A parameter is found by its aliases and by its full name, in any case of letters. Giving values sets exactly the named parameters to the given values, within their ranges (adapted to them if asked, refused otherwise), and changes nothing else; with the range checks left on every value is in range after any history of calls, including calls that fail. The check of the constraints says whether they hold. Random values are in range and satisfy all constraints, and touch only the listed parameters. A calibration run is simulated only with the sampled values (mapped back from transformed space), every parameter defined and in range and every constraint satisfied; values given in transformed space are read back in transformed space.", "quantifier": "all parameter sets and histories of calls, names, values, constraints, draws", "why_tests_cant": "must hold for every content, rate, capacity and time step (a continuum), not for sampled values", "anchors": ["python/src/hydrobricks/parameters.py:ParameterSet", "python/src/hydrobricks/trainer.py:simulation"]}
{"id": "C77", "title": "Connections computed from the terrain are shares that sum to one and follow the flow directions", "statement": "The connections computed from a map of hydro units, flow directions and amounts give each unit, in proportion to what its cells drain into the cells of the other units (or, when forced and nothing drains to them, to the common border), shares in (0,1] to other declared units that sum exactly to one, rounded to the requested decimals with an error below one unit of the last decimal, keeping exactly the receivers of at least one per cent; a unit draining mostly out of the catchment gets none; with mode 'single' everything goes to the main receiver. Declared with set_connectivity they are accepted, every unit of the built basin gets exactly its row, and lateral snow transfers along them never give more than there is.", "quantifier": "all maps (any size, ids, directions, positive amounts), both modes, forced or not, any number of decimals from two", "why_tests_cant": "must hold for every content, rate, capacity and time step (a continuum), not for sampled values", "anchors": ["python/src/hydrobricks/preprocessing/catchment_connectivity.py:CatchmentConnectivity", "python/src/hydrobricks/hydro_units.py:set_connectivity"]}
{"id": "C78", "title": "The forcing table is the documented rule applied to the corrected station data", "statement": "After Forcing.apply_operations, the value of a variable spatialised from a station, for every unit and every time, is the rule documented for its last spatialisation (constant, additive or multiplicative gradient per 100 m with one or twelve monthly values, two gradients around a threshold) applied to the station value after all the corrections of that variable in order; it equals the station value at the station's elevation and is never negative unless the variable is a temperature; PET is the formula applied to the values of the same unit; get_total_precipitation is the sum over time of the area-weighted mean; re-applying during a calibration only the operations that depend on changing parameters gives the same table as a fresh application with the new parameters.", "quantifier": "all units, times, station series, lists of operations, parameter values and references to parameters", "why_tests_cant": "must hold for every content, rate, capacity and time step (a continuum), not for sampled values", "anchors": ["python/src/hydrobricks/forcing.py:apply_operations,_apply_operations_of_type,_apply_prior_correction,_apply_spatialization_from_station_data,get_total_precipitation", "python/src/hydrobricks/models/model.py:set_forcing", "python/src/hydrobricks/trainer.py"]}
{"id": "C79", "title": "The delta-h look-up tables hold the glacier after each share of its ice has melted", "statement": "Row k of the tables computed by GlacierEvolutionDeltaH.compute_lookup_table for n increments (bands approach, any of the three ways to update the width) holds the initial volume of ice times (1 - k/n), plus what emptied bands still owe (nothing when no band is emptied during the increment, nothing in the first and last rows); the volume of every hydro unit never grows from a row to the next, its area stays between zero and the initial area, it has an area exactly when it has ice, and every row but the last one holds ice; loaded in a model these are consistent tables for the delta-h action.", "quantifier": "all glacier profiles (any parts, bands and units), numbers of increments, changes per band that are not negative (always the case up to 20 km2)", "why_tests_cant": "must hold for every content, rate, capacity and time step (a continuum), not for sampled values", "anchors": ["python/src/hydrobricks/preprocessing/glacier_evolution_delta_h.py:GlacierEvolutionDeltaH"]}
{"id": "C80", "title": "The area-scaling look-up tables are the mapped glacier with a uniform layer taken off", "statement": "Computing the area-scaling tables always succeeds for a unit with ice: the sharing out of the melt among the pixels ends and no assertion fails. Row k of n holds exactly the initial volume of ice times (1 - k/n), and is the mapped glacier of the unit with one and the same thickness of ice taken off all cells (thinner cells being bare): its area is the area of the cells that keep ice. That thickness is unique; areas never grow along the table and are zero only in the last row; row 0 is the map. Loaded in a model, the area-scaling action never meets an empty row nor leaves the table while ice is left, conserves the ice, and takes the extent of the mapped glacier whose volume is the current volume of ice to within one increment.", "quantifier": "all maps of units and thicknesses, numbers of increments, rows, states of the unit", "why_tests_cant": "must hold for every content, rate, capacity and time step (a continuum), not for sampled values", "anchors": ["python/src/hydrobricks/preprocessing/glacier_evolution_area_scaling.py:GlacierEvolutionAreaScaling", "python/src/hydrobricks/preprocessing/glacier_cover.py:extract_ice_thickness_and_mask", "core/src/actions/ActionGlacierEvolutionAreaScaling.cpp:Apply"]}
{"id": "C81", "title": "Tables of land cover changes are in force as they are written, units are converted", "statement": "Every conversion of units keeps the quantity (value times size of the unit) and can be undone; brackets and spaces around a unit do not matter. After a file of land cover changes has been loaded, the area of the cover in force in a unit at any date is the last value of its row at or before that date, converted to square metres, although repeated values are not stored; changes of other units and covers are kept; the changes are in the order of the dates. A file is refused exactly when an area has to be read in a unit that is not one of area. With elevations each row goes to the first unit of the same integer elevation. Yearly interpolated areas pass through the given ones, lie on the straight line between them, never leave the range of the values, and those of the covers of a unit add up to the area of the unit.", "quantifier": "all units and texts, tables (missing and repeated values included), dates, changes already stored, units", "why_tests_cant": "must hold for every content, rate, capacity and time step (a continuum), not for sampled values", "anchors": ["python/src/hydrobricks/_units.py:convert_unit", "python/src/hydrobricks/_units.py:get_unit_enum", "python/src/hydrobricks/actions/action_land_cover_change.py:load_from_csv", "python/src/hydrobricks/actions/action_land_cover_change.py:_interpolate_yearly", "core/src/actions/ActionLandCoverChange.cpp:AddChange"]}
{"id": "C82", "title": "Discretising a catchment puts every cell in exactly one hydro unit", "statement": "Discretising by any combination of criteria (elevation, slope, aspect, radiation, sub-catchments) never fails on its own assertion: the units are exactly the combinations of classes with at least one cell, without repetition, numbered from 1 in order; a cell carries the number of a unit exactly when it lies in all the classes of that unit, and no number exactly when it is outside of the catchment or in no class of some criterion. Bands between increasing bounds, aspects and sub-catchments exclude each other. With equal intervals and the bounds chosen by the code every cell with a value is in a band, whose bounds are consecutive multiples of the distance, and the areas of the elevation bands add up to the area of the catchment.", "quantifier": "all maps, criteria and their combinations, distances, bounds, numbers of bands", "why_tests_cant": "must hold for every content, rate, capacity and time step (a continuum), not for sampled values", "anchors": ["python/src/hydrobricks/preprocessing/catchment_discretization.py:discretize_by", "python/src/hydrobricks/catchment.py:get_hydro_units_attributes"]}
{"id": "C83", "title": "The table of hydro units hands the model fractions that describe the land covers and add up to one", "statement": "Initialising the land covers gives every unit to the generic cover. Extracting land covers from a map of classes is then always accepted: units keep their id, area, elevation and properties, covers found in a unit are registered, the fraction of a cover is the share of the cells of the unit that have one of its classes, fractions are between 0 and 1 and add up to 1. Initialising one cover from areas changes only that cover and the generic one, in the listed units, and keeps the sum. A file with areas per cover gives fractions that reproduce these areas. Handing the table to the model replaces the units by those of the table, highest first, each with its own properties and fractions, and the model accepts them.", "quantifier": "all tables, maps of classes, mappings, lists of areas, units of area", "why_tests_cant": "must hold for every content, rate, capacity and time step (a continuum), not for sampled values", "anchors": ["python/src/hydrobricks/hydro_units.py:HydroUnits", "python/src/hydrobricks/preprocessing/catchment_land_cover.py:CatchmentLandCover"]}
{"id": "C84", "title": "Scores on a period compare simulated and observed values of the same days", "statement": "The table of scores of an evaluation on calibration, validation and simulation periods has one row per defined period; each score is the metric applied to the simulated and observed values of exactly the days of the run that lie in the period, both ends included, observations being found by their dates. It is produced whenever the run covers the periods and every such day has an observation, and refused when a period is not covered or observations are missing. Accepted periods lie in the simulation period, which is the smallest that contains them when it is not given; the spin-up of a period is neither negative nor longer than the period, and a spin-up in years ends on the same date of a later year.", "quantifier": "all runs, observation series, periods, spin-ups, metrics", "why_tests_cant": "must hold for every content, rate, capacity and time step (a continuum), not for sampled values", "anchors": ["python/src/hydrobricks/periods.py:Periods", "python/src/hydrobricks/periods.py:evaluate_periods", "python/src/hydrobricks/models/model.py:Model.eval"]}
{"id": "C85", "title": "A calibration scores a parameter set by the skill of the same days, and prefers the better one", "statement": "Dated discharge observations are put on the days of the modelling period, the last one of a date counting, or refused when a day has none or the warm-up leaves no day. The score of a set that was run is the mean over the models of the skill of simulated and observed discharges of the days after the warm-up; with auxiliary signals each is compared on its own values, a run is rejected if a signal has no values to compare or exceeds its tolerance, else skills are weighted and added. Whether the algorithm minimises or maximises, it prefers the higher skill, better metrics give a better score, results report the skill, and the best run reported is the one of highest skill. An error turned into a skill is 1 when perfect and 0 when no better than the mean of the observations. Sets that break constraints or ranges, or fail, get the worst score.", "quantifier": "all models, periods, observations, metrics, auxiliary signals, weights, directions, lists of results", "why_tests_cant": "must hold for every content, rate, capacity and time step (a continuum), not for sampled values", "anchors": ["python/src/hydrobricks/trainer.py:SpotpySetup", "python/src/hydrobricks/trainer.py:get_results", "python/src/hydrobricks/trainer.py:get_best", "python/src/hydrobricks/evaluation/metrics.py:to_skill"]}
{"id": "C86", "title": "The simulated glacier mass balance is the surface balance of the glaciers over the observed period", "statement": "For every observed balance inside the run, the simulated value is the mean over the glaciers of its elevation band (lower bound included, upper bound excluded), weighted by their mean area over the period, of the change of the snow on the glacier less the ice melted after the first day up to the last one, that is accumulation less ablation. There is no value for periods outside the run or bands without glacier. With constant areas winter and summer add up to the year, and bands combine to the whole. Values come in the order of the targets; restricting to a period keeps the targets that lie in it; a hydrological year runs from the first of its month to the day before it a year later.", "quantifier": "all runs, glaciers, areas, targets, bands, periods", "why_tests_cant": "must hold for every content, rate, capacity and time step (a continuum), not for sampled values", "anchors": ["python/src/hydrobricks/evaluation/glacier_mass_balance.py:GlacierMassBalanceObservations", "core/src/fluxes/FluxToBrickInstantaneous.cpp:UpdateFlux", "core/src/base/ModelBuilder.cpp:BuildHydroUnitBricksFluxes"]}
{"id": "C87", "title": "Simulated snow cover is the share of the unit under snow; observed cover is the mean of the valid pixels", "statement": "For every observed fraction on a unit and day of the run, the simulated value is the mean, weighted by the fractions of the land covers, of the snow share of each cover, linear in its water equivalent up to the threshold; it lies in [0, 1], grows with the snow, is 1 just when every cover has at least the threshold and 0 just when there is no snow; other units and days have no value, and values come in the order of the targets. Loading a raster gives, for each date of the period and each unit, the scaled mean of the valid pixels of the unit when they reach the demanded share, the same from stacks and from tiles; CSV files are read back as written; with a cache directory the answer is that without cache.", "quantifier": "all runs, covers, rasters, options, files, sequences of requests to a cache", "why_tests_cant": "must hold for every content, rate, capacity and time step (a continuum), not for sampled values", "anchors": ["python/src/hydrobricks/evaluation/snow_cover.py:SnowCoverObservations", "python/src/hydrobricks/evaluation/snow_cover.py:_aggregate_stack", "python/src/hydrobricks/evaluation/snow_cover.py:_aggregate_modis"]}
{"id": "C88", "title": "The reference metric of the observed discharge compares the same calendar days of sampled and observed years", "statement": "For observations of whole years and a period of whole years, every bootstrap sample has the length of the observed series and holds at each place the value of the same month and day of the year drawn (29 February left out). All combinations are used once, with exclusion never drawing the compared year itself; the reference is the mean of the metric over the samples; with at least two years there is always a sample. Random sampling gives the metrics of the first admitted draws, as many as asked. With mean_discharge each day is compared with the mean over the years of the same day. One year of data is refused.", "quantifier": "all series of whole years, periods, metrics, sequences of draws", "why_tests_cant": "must hold for every content, rate, capacity and time step (a continuum), not for sampled values", "anchors": ["python/src/hydrobricks/evaluation/discharge.py:compute_reference_metric", "python/src/hydrobricks/evaluation/metrics.py:evaluate"]}
{"id": "C89", "title": "Regridding of gridded forcing gives each unit the mean of its pixels, whatever the threads do", "statement": "After regridding a netCDF series, the value of a unit at each time is the mean over the pixels of the unit of the data under them: for every block size and every order in which the tasks of the thread pool run. With additive or multiplicative gradients each pixel is first corrected for the height of the unit over the data cell, and multiplicative correction never makes data negative. The weights of a unit are not negative and sum to one, so that the result lies between the smallest and the largest contribution. Data by day of the year give every day of the period the mean of its day of the year. The call is refused exactly when the times or the units do not fit.", "quantifier": "all data, unit rasters, block sizes, schedules of the threads, periods", "why_tests_cant": "must hold for every content, rate, capacity and time step (a continuum), not for sampled values", "anchors": ["python/src/hydrobricks/time_series.py:regrid_from_netcdf", "python/src/hydrobricks/time_series.py:_extract_time_step_data_weights", "python/src/hydrobricks/time_series.py:_extract_time_step_data_weights_with_gradient"]}
{"id": "C90", "title": "The graph of a model structure shows exactly the components and fluxes of the structure", "statement": "StructureGraph.from_settings gives a graph whose edges are one for each output of each process, one to the atmosphere for each process without output and one for each output of each splitter, and, when asked for, one for each pair of a forcing and a component that reads it, each once. Nodes have distinct names, and both ends of every edge are nodes. Nodes are exactly the bricks, splitters, forcings read and targets; with distinct names each brick and splitter has its own role, kind, level and flags. The call fails exactly for a variant that does not exist.", "quantifier": "all exported structures, variants, with and without forcing", "why_tests_cant": "must hold for every content, rate, capacity and time step (a continuum), not for sampled values", "anchors": ["python/src/hydrobricks/structure.py:StructureGraph.from_settings", "python/src/hydrobricks/structure.py:Node", "python/src/hydrobricks/structure.py:Edge"]}
{"id": "C91", "title": "Cast shadows fall where a cell towards the sun is higher than the line to the sun", "statement": "For every DEM, mask, sun height and azimuth, calculate_cast_shadows marks a cell only when a cell less than one pixel off its line to the sun, on the side of the sun, is higher than this line; no cell is lost when cells are sorted on rays. A cell as high as all others is never marked, and a marked cell stays marked when the sun is lower. Cells outside of the mask have no value, by night all others are in the shadow, pixels that are not square are refused. With the sun in one of the four main directions a cell is marked exactly when a cell on its line is higher than it.", "quantifier": "all DEMs of all sizes, masks, zenith and azimuth angles", "why_tests_cant": "must hold for every content, rate, capacity and time step (a continuum), not for sampled values", "anchors": ["python/src/hydrobricks/preprocessing/potential_solar_radiation.py:calculate_cast_shadows"]}
{"id": "C92", "title": "Potential radiation is that of the sun's true position on the ground, averaged over the whole day", "statement": "For every latitude and day the declination stays between the tropics and the hour angle limit is the moment of sunset; zenith and azimuth are those of the sun's direction; the angle of incidence never fails on angles, is between 0 and 90 degrees and its cosine is the product of the sun's direction and the ground's normal. The radiation of a day, in each cell, is the mean over 24 * steps_per_hour instants evenly spread over the whole day of the direct radiation on the cell's ground outside of the cast shade, the night counting as zero; it is never negative and never above the solar constant at the least distance. Every day of the year is computed where the sun rises and sets.", "quantifier": "all latitudes, days, hour angles, slopes, aspects, numbers of steps per hour, elevations, transmissivities, rasters, cast shadows", "why_tests_cant": "must hold for every content, rate, capacity and time step (a continuum), not for sampled values", "anchors": ["python/src/hydrobricks/preprocessing/potential_solar_radiation.py:get_solar_declination_rad", "python/src/hydrobricks/preprocessing/potential_solar_radiation.py:get_solar_hour_angle_limit", "python/src/hydrobricks/preprocessing/potential_solar_radiation.py:get_solar_zenith", "python/src/hydrobricks/preprocessing/potential_solar_radiation.py:get_solar_azimuth_to_south", "python/src/hydrobricks/preprocessing/potential_solar_radiation.py:_calculate_angle_of_incidence", "python/src/hydrobricks/preprocessing/potential_solar_radiation.py:_calculate_radiation_hock_equation", "python/src/hydrobricks/preprocessing/potential_solar_radiation.py:calculate_daily_potential_radiation"]}
{"id": "C93", "title": "A declared model structure is accepted exactly when it follows the schema, and read as declared", "statement": "For every structure given as data, CustomModel accepts it exactly when all its keys are known and all values have the documented form; otherwise all faulty bricks and processes are named at once, and only these. An accepted structure is turned into the model's bricks and processes exactly as declared, in order; a brick without a place goes to the hydro units. An option given to the constructor wins over the structure's, which wins over the default, and unknown arguments are refused.", "quantifier": "all values a YAML file can hold, all keyword arguments, all land covers", "why_tests_cant": "must hold for every content, rate, capacity and time step (a continuum), not for sampled values", "anchors": ["python/src/hydrobricks/models/custom.py:_validate_structure_spec", "python/src/hydrobricks/models/custom.py:CustomModel", "python/src/hydrobricks/models/model.py:_generate_one_structure", "python/src/hydrobricks/models/model.py:_set_options"]}
{"id": "C94", "title": "Attributes of the hydro units extracted from the rasters", "statement": "For every raster of ids, elevations, slopes and aspects, the attribute table has one row for each unit, in the order of the ids; the area of a unit is its number of cells times the area of a pixel (to 0.005), and the area of the catchment that of all cells of units; least, mean and greatest elevation of a unit are in this order and describe its cells to 0.005; the aspect is in [0, 360) and has the direction of the sum of the directions of the unit's cells, so that cells facing 350 and 10 degrees give the north, whatever their order; cells without a value change nothing.", "quantifier": "all rasters, all numbers of cells and units, all pixel sizes", "why_tests_cant": "must hold for every content, rate, capacity and time step (a continuum), not for sampled values", "anchors": ["python/src/hydrobricks/catchment.py:get_hydro_units_attributes", "python/src/hydrobricks/preprocessing/catchment_topography.py:extract_unit_mean_aspect", "python/src/hydrobricks/preprocessing/catchment_topography.py:extract_unit_mean_elevation", "python/src/hydrobricks/preprocessing/catchment_topography.py:extract_unit_mean_slope"]}
{"id": "C95", "title": "The forcing declared in a project file", "statement": "For every project file, the sections about the forcing are accepted exactly when they follow the documented form, all columns exist in the file, no variable has two sources, there are precipitation and evapotranspiration (given, or temperature and latitude), and every reference 'param:name' has its data parameter. An accepted project makes exactly one field for each variable, corrects the precipitation before spreading it, and no gradient lacks the elevation of the station.", "quantifier": "all values a YAML file can hold, all files and their columns, all sets of gridded variables", "why_tests_cant": "must hold for every content, rate, capacity and time step (a continuum), not for sampled values", "anchors": ["python/src/hydrobricks/project.py:_validate_forcing", "python/src/hydrobricks/project.py:_validate_station_forcing", "python/src/hydrobricks/project.py:_validate_data_parameters", "python/src/hydrobricks/project.py:_validate_cross_checks", "python/src/hydrobricks/project.py:_build_project"]}
{"id": "C96", "title": "The hillshade follows the angle between the sun and the slope", "statement": "For every elevation model of two by two cells and more, and all allowed angles, the hillshade lies in [0, 255]; on a plane every cell, also at the border, has the shade 255 (cos + 1) / 2 of the angle between the sun and the normal of the plane; flat ground has that of the height of the sun.", "quantifier": "all rasters and sizes, all azimuths and altitudes, all planes", "why_tests_cant": "must hold for every content, rate, capacity and time step (a continuum), not for sampled values", "anchors": ["python/src/hydrobricks/preprocessing/catchment_topography.py:get_hillshade"]}
