# Formal model of hydrobricks in Lean 4 — design

Source under study: `/repo/core/src` (C++ core of hydrobricks, pinned commit). The Lean project is
`/verif/lean`, modules under `lean/Verif/`.

## Conventions of the model

* Every `double` is modelled by an exact number: a generic linearly ordered field `K`
  (`[Field K] [LinearOrder K] [IsStrictOrderedRing K]`) where the code only uses field operations and
  comparisons, `ℝ` where it calls `exp`, `log`, `tanh`, `pow`, `sqrt`, and `ℚ` for executable
  examples and counter-examples. IEEE rounding, NaN propagation and overflow are **not** modelled
  (except NaN used as an explicit "no value" marker, modelled by `Option`).
* Release-build semantics: `assert` is off. `throw` is an `Except` error. Out-of-range accesses and
  null dereferences the code relies on not happening are distinct outcomes (`none`/error), never silently totalised.
* Pointers become indices; a function that mutates through a pointer returns the new value.
* A small separate specification (`lean/Verif/Spec/*.lean`) states the English claims; the property
  theorems are in `lean/Verif/Props/*.lean`, apart from the helper lemmas; beside each theorem there is
  an `example` showing that a concrete non-trivial case meets its hypotheses.
* Where the code violates the property, the negation is proved with a concrete witness
  (`…_fails`/`…_counterexample`), and the strongest true part is proved as `…_partial`.

## Plan per property

| id | what is modelled | how it is proved |
|---|---|---|
| C01 | `WaterContainer::ApplyConstraints` over lists of rate slots | list induction (sum of scaled rates), real-field algebra |
| C02 | same, capacity branch, overflow, configuration error | same; negation for a pre-loaded overflow slot |
| C03 | same | permutation lemma (`List.Perm`), idempotence by feasibility |
| C04 | `WaterContainer::Finalize` | case analysis |
| C05 | container/brick operations as a state machine with `Save`/`Reset` | induction over operation lists |
| C06 | network of bricks, `ApplyRates`, fluxes, `Finalize` | potential function, induction over the brick list |
| C07 | Euler, Heun, RK4 drivers on the network | refinement to C06 through "stage leaves solver contents as after ResetState" |
| C08 | `ApplyDirectChanges` | same potential; negation for double-counted inputs |
| C09 | `ProcessTimeStep`/`Run` | induction over steps |
| C10 | `EnforceConstraints` sweeps | fuel recursion + fixed point implies per-container feasibility |
| C11 | `ValidateFluxTopology` | decision procedure = specification |
| C12 | `UpdateFlux`, weights of `ModelBuilder` | algebra; negation for compounded fractions |
| C13 | `SolverAnalyticLinear` | calculus over ℝ (`HasDerivAt`), semigroup law |
| C14 | `SolverImplicitEuler`, `SolverCrankNicolson` | bisection invariants, IVT-style bracketing |
| C15 | `SolverSequential::Solve` | potential function of C06 |
| C16 | the five splitters | algebra, monotonicity |
| C17 | the seven ET laws | real analysis (`pow`, `exp`, `tanh`) |
| C18 | Socont/HBV infiltration + rest process | algebra, `rpow` |
| C19 | GR4J formulas | `tanh` inequalities |
| C20 | `ProcessInterceptionGR4J` | case analysis |
| C21 | degree-day laws | order algebra |
| C22 | CemaNeige melt | invariant over series |
| C23 | snow holding, refreezing | algebra |
| C24 | outflow/runoff laws | algebra, `rpow` monotonicity |
| C25 | percolation, capillary | algebra |
| C26 | GR S-curves/ordinates, HBV weights | telescoping sums for any length |
| C27 | UH buffer | induction over input series |
| C28 | GR4J routing step | algebra over ℝ |
| C29 | GR6J exponential store | `exp`/`log` analysis |
| C30 | HBV routing | induction over series |
| C31 | snow slide | sums over receivers |
| C32–C34 | `HydroUnit` fractions & transfers | invariant by induction over requests; negations |
| C35–C36 | `ActionsManager`, `Action` | schedule invariants, induction over dates |
| C37–C38 | glacier actions | algebra |
| C39 | `TimeMachine`, logger rows | induction over steps |
| C40–C41 | `TimeSeries*`, `ModelHydro::AddTimeSeries` | refinement to "value dated at"; negations |
| C42 | `ToMJD`/`FromMJD` (civil-calendar algorithm), day of year | integer arithmetic over all dates |
| C43–C44 | `Run`, spin-up, `Reset` | state-machine equivalence; negation for re-run |
| C45 | `SetParameterValue` | refinement; negations |
| C46 | `Find` | list induction over sorted tables |
| C47 | parameter modifiers/updater | induction over date sequences |
| C48 | `AssignHydroUnitStructures` | optimality proof |
| C49–C50 | `Logger`, log labels | list lemmas |
| C51 | `AddLateralConnection`, `HydroUnitProperty` | algebra; negation for degrees |
| C52 | factories | finite tables + default branch for all strings |
| C53 | `NumericConstants.h` | order algebra |
| C54 | `Forcing` | state machine |
| C55 | `SolverExponentialEuler` | `exp` calculus, same bracket as C13 |
| C56 | sublimation, SWAT snow-to-ice laws | order algebra, `sin` bounds |
| C57 | `ModelBuilder` creation and wiring (`Model/Wiring`) from authored structures (`Model/Author`) | "builds iff well formed" and "each declared output gives exactly its flux", by induction over the declarations |
| C58 | `SettingsModel::Generate*` base structures on top of C57 | induction over land covers for all option combinations |
| C59 | parameter storage, `SetParameter` of every component, `UpdateParameters` | refinement: each component pointer denotes the settings slot |
| C60 | `ParseDate` over `strptime`-like scanner | parser correctness over all texts of the announced ways |
| C61 | `SettingsBasin` authoring, `SubBasin::BuildBasin`, `AssignFractions`, `HydroUnit::IsValid` | state machine, induction over declarations |
| C62 | forcing attachment, every component's `IsValid`, `ModelHydro::IsValid` | "accepted iff complete" for all structures |
| C63 | `Processor::ConnectToElementsToSolve` on top of C57: the network of C09 is assembled from the built components (`Model/Assemble`) | the hypotheses of the C09 balance are derived from conditions on the declared structure; fluxes of the built net are characterised by C57 |
| C64 | the Python descriptions of Socont, HBV-96, GR4J, GR6J and the glacier module, the structure variants, `_generate_one_structure` (`Model/Predefined`) on top of C58 | the written structure is the described one (`Spec.complete`), for every cover list and option; the conditions of C57 (builds) and C63 (conserves) are derived from a general notion of a good description (`Spec.Plan`) |
| C65 | nothing new: C64's descriptions fed into C62's `prepare` | every component of a good description is complete (`Model/PredefinedReady*`), case analysis over the documented option values, then `c62` |
| C66 | nothing new: the laws of C17–C31 | specification transcribed from the class comments (`Spec/Equations`: real functions, S-curves, convolution of the whole series, store recursions); equality law by law, induction over the run for the routing |
| C67 | the splitters of a built model (`withSplitters`: which amounts go to which fluxes) on top of C57/C63/C64 | volumes of the fluxes classified by where they come from and go to; what the splitters of a unit hand out summed over the land covers (extents sum to 1); the clock stands still during a step; induction over the run |
| C68 | on top of C57/C64: `Spec/Scheme.lean` writes the flow diagrams down from the documentation, as inductive relations over names, independent of how structures are described and built | arrows of a built model ↔ declared outputs (C57) ↔ entries of the description (C64) ↔ the diagram, by cases on the bricks of a described structure |
| C69 | exchange counters over `processTimeStep` (`Spec/Exchange.lean`: number of evaluations of a scheme, what the processes add) | `Props/Exchange.lean`: an additive relation `Adds` through every function of the step; evaluated on a built GR4J model |
| C70 | published and computed daily recursions (`Spec/Gr4j.lean`), initial state and ranges (`Spec/Gr4jStart.lean`); the direct phase of a GR4J unit worked out (`Model/Gr4jUnit.lean`, `Gr4jDays.lean`), the built network of the description (`Gr4jBuilt.lean`, `Gr4jNet.lean`), the laws by process type (`Gr4jLaws.lean`) | `Props/Gr4jRun.lean`: step refinement ground → store → routing for one unit, then all units, then all days by induction, then C66 for the formulas; `Props/Gr4jBook.lean`: equality with the published model, the case where the discharge is held back; `Props/Gr4jSmooth.lean`, `Gr4jNear.lean`: for any weather the distance to the published discharge is at most 23·10⁻⁸ mm per day of run when X2 ≤ 0 (with a growth factor otherwise), because each store moves in one direction with its level and its inputs; `Props/Gr6jNear.lean`: the same for GR6J, whose routing container may be negative (`Router.neg`), against the exact exponential store |
| C71 | one step of the network model (`Model/Network.lean`), reports of negative contents counted in `logs`; `Spec/Overdraft.lean` says when an inflow is counted once and when a law is modest | `Props/Overdraft.lean`: what `ApplyConstraints` lets through is bounded by what it counts (`Model/Overdraft.lean`), then invariants over processes, bricks, units (`Model/OverdraftBrick.lean`); counterexamples on the HBV-96 model built from its description (`Props/OverdraftExamples.lean`) |
| C72 | the network step and run (`Model/Network.lean`) with a part of the containers and fluxes singled out (`Spec/Apart.lean`: nothing flows into the part from outside, its laws read only the part); the number of constraint sweeps is counted (`Model/ApartSolve.lean`) | two-run simulation relation (contents, amounts, change rates and what the laws see of the hidden state agree on the part), through every operation of the direct phase and of the four solvers; induction on the steps; units of built models (`Model/ApartUnits.lean`, `Props/Apart2.lean`) are such parts. Partial: explicit solvers need equal numbers of sweeps, counterexample `ApartDemo.c72_coupled` |
| C73 | `ModelHydro::InitializeWithBasin`/`Initialize` and the Python `setup` (`Model/Setup.lean`), composing the models of the structures (C58, C64), the basin (C61), the choice of structures (C48), the building and checks (C57, C62), dates (C60), solver names (C52), extents (C32, C61), clock (C39); specification in `Spec/Setup.lean` | composition of C39, C42, C48, C52, C60, C61, C62, C64, C65 for each predefined model; inversion of the set-up for the guarantees and refusals |
| C74 | the model of C73 together with the network built from it (C57, C63) and the extents assigned at set-up (`Setup.Model.extent`) | the set-up gives what C67 asks for (structures, areas, extents), then C67 |
| C75 | `Model/Results.lean`: tables of the logger written to a file (column-major matrices into row-major variables, limits of the dimensions), the Python class `Results` with numpy arrays of any dimension | the written variable holds the transposed matrices (induction over the labels); each reading function keeps the time axis (`Shows`); means as sums over the known cells, then over fractions adding up to 1 |
| C76 | `Model/ParamSet.lean`: the Python parameter table with its look-up, range checks, constraints, random draws (any stream of numbers in [0,1]) and the guard of a calibration run | the first matching row is the declaring one (uniqueness of aliases is an invariant of accepted definitions, a full name has a colon and an alias none); induction over the keys of a call and over the tries; values in range is an invariant of all histories |
| C77 | `Model/Terrain.lean`: the loop over the cells, removal of the outside, neighbours, normalisation, one-per-cent filter, largest-remainder rounding, `set_connectivity`; composed with `Model/Basin.lean` and C31 | fold invariant over the cells (dictionary value = sum over the cells drained so far); the remainders sum to the number of shares rounded up, and sorting makes those positive; composition with `c61_built`, `c61_units` and `Spec.GoodConns` |
| C78 | `Model/ForcingOps.lean`: stored operations, resolution of `param:` options, corrections, station spatialisation (all methods), storage, gridded and PET operations (external results), `apply_operations` with and without `apply_to_all`, hand-over names | induction over the operations of each type; the specification gives rules (`Rule.value`) and a relation `Corrected`; re-application by an invariant that aligns the old table with the new one |
| C79 | `Model/GlTable.lean`: parametrisation, melt with the owed excess, width scaling (initial, previous, at the end), sub-band parts, tables per unit; the square root is a parameter (instantiated with `Real.sqrt`) | invariant over the increments (ice = initial ice x (1 - k/n) + owed); products area x water equivalent conserved by the width scalings; composition with C38's `Spec.DeltaHTables` |
| C80 | `Model/GlScaling.lean`: pixels of a unit, melt and `while` loop sharing out the deficit, assertion, width scaling, tables | invariant of the loop (same amount off every pixel or empty; sum kept; the number of pixels with ice decreases, hence the loop ends); induction over the increments; composition with C38's action model |
| C81 | `Model/CoverTable.lean`: units (names, conversion), removal of repeated values, matching by id or elevation, calls of `add_change`, yearly interpolation | conversions by cases against sizes in base units; the last value up to a date is kept by the removal (induction on the columns); stored changes of one unit = its row, by sortedness and permutation (C35) |
| C82 | `Model/Discretize.lean`: bands (equal intervals, quantiles), masks, product of the criteria, numbering loop with its assertion, `uint16` map, areas | closed form of the loop by induction over the combinations (disjointness of the product); coverage of sorted bounds by induction; monotonicity of the quantiles |
| C83 | `Model/UnitTable.lean`: `HydroUnits` (generic cover, initialisation, areas of covers, loading, calls to the core), `CatchmentLandCover` on a map of classes | invariant of the loop over the covers (closed form of the dictionaries of areas by induction over the classes); run of the calls through the model of C61 |
| C84 | `Model/Periods.lean`: `Period`, `Periods`, `spinup_to_days`, `evaluate_periods`, `Model.eval` | sorted lists of days with the same number of elements, one contained in the other, are equal; calendar of C42 for spin-ups in years |
| C85 | `Model/Calib.lean`: `SpotpySetup` (alignment, simulation, evaluation, objective function, auxiliary signals, draws), `to_skill`, `get_results`, `get_best` | closed form of the loop over the signals of the concatenated series; monotonicity of each term; induction for the best run |
| C86 | `Model/MassBalance.lean`: `GlacierMassBalanceObservations` (targets, periods, simulated values), weighting of the recorded melt flux | reduction of the masks to a filter on glaciers; telescoping sums; link to the flux update of the core model |
| C87 | `Model/SnowObs.lean`: `SnowCoverObservations` (targets, CSV, aggregation of stacks and tiles, cache, simulated values) | reduction of masks and labels to sets of pixels; weighted sums; invariant of the cache over sequences of requests |
| C88 | `Model/RefMetric.lean`: `DischargeObservations.compute_reference_metric` (block bootstrap of years) | strictly sorted lists with the same members are equal, with the calendar of C42; induction on draws |
| C89 | `Model/Regrid.lean`: `TimeSeries2D.regrid_from_netcdf` and its pool of threads | induction on the order of the assignments (each writes the same final value of its cells); sums of counts over cells as means over pixels; calendar of C42 |
| C90 | `Model/StructGraph.lean`: `StructureGraph.from_settings` | each loop as a step with the names, links and edges it adds; composition of steps |
| C91 | `Model/Shadow.lean`: `PotentialSolarRadiation.calculate_cast_shadows` (rays, tilted DEM, accumulated maximum) | places on rays are distinct (floors), running maximum by induction, trigonometry of the eight sectors over ℝ |
| C92 | `Model/Solar.lean`: `PotentialSolarRadiation` (declination, hour angle limit, zenith, azimuth, incidence, Hock equation, the day's sum) over ℝ | the sun's direction as a unit vector; quadrants of the arctangent; the extra step after sunset falls in the night since the steps divide the day |
| C93 | `Model/CustomSpec.lean`: `CustomModel` (validation, options) and the reading of the structure by the generator (ends in the descriptions of `Model/Predefined.lean`) | equivalence with a declarative schema section by section; paths of messages; lookup after updates by induction |
| C94 | `Model/UnitStats.lean`: `get_hydro_units_attributes` over real numbers, with rounding to two decimals | rounding is monotone and within a half; folds; complex argument for the aspect; counting cells by id |
| C95 | `Model/ProjectFile.lean`, `Model/ProjectObs.lean` (observations and required sections), `Model/ProjectPeriods.lean` (periods): forcing and data parameters of `load_project`, from the values of the file to the operations on the forcing | equivalence with a declarative schema section by section; lists of operations by cases |
| C96 | `Model/Hillshade.lean`: `get_hillshade` with `np.gradient`, over real numbers | trigonometry: the shade is a scalar product of unit vectors; Cauchy-Schwarz as a sum of squares; gradient exact on lines |

(Rows for later properties are in `MANIFEST.json`; each `Props/*.lean` file states what it proves in its header.)

## Trusted base

* **Lean 4.33.0's kernel.** No `native_decide`, no `bv_decide`, no axiom of our own. Every theorem depends on
  a subset of `propext`, `Classical.choice`, `Quot.sound` (`vcheck` lists them per theorem). `decide +kernel` is
  only used on closed executable examples, evaluated by the kernel.
* **The reading of the C++ source**: that each definition of `Model/` says what the cited lines do. Nothing
  mechanical links the Lean text to the C++ text.
* **The statements** in `Spec/*.lean` and `Props/*.lean`, to be compared with `properties.jsonl`.

## What is modelled (file map)

| Lean module (`lean/Verif/Model/`) | C++ modelled |
|---|---|
| Num, Double | `NumericConstants.h` comparisons; IEEE rounding as a function `rnd` (only for the clock, C39) |
| Container, ContainerLemmas | `WaterContainer`, `SnowContainer`, `IceContainer` state, `ApplyConstraints`, `Finalize`, save/reset |
| Bricks | `Brick`, `LandCover`, `Snowpack`, `Glacier`: containers, nullity, reading order |
| Network, NetworkTrace, BalanceLemmas, FeedForward, StepLemmas | `Processor`, explicit solvers, sequential loop, `Flux*`, `Process::ApplyChange`, one step and the run loop |
| Topology | `Processor::ValidateFluxTopology` |
| Weights | `Flux` weighting, `LandCover/SurfaceComponent::SetAreaFraction`, weights set by `ModelBuilder` |
| Sequential | `SolverAnalyticLinear`, `SolverImplicitEuler`, `SolverCrankNicolson`, `SolverExponentialEuler` |
| Laws, LawLemmas | all process and splitter laws (ET*, infiltration, melt, refreeze, outflow, percolation, runoff, capillary, sublimation, transforms, splitters, GR4J formulas) |
| Routing | `ProcessRoutingGR4J/GR6J/HBV`, `helpers/GRUnitHydrograph.h`, `helpers/GR6JFormulas.h` |
| Lateral | `ProcessLateral*` (snow slide, Frey redistribution), lateral connections |
| LandCover, Glacier, Actions | `HydroUnit` fraction changes, all `Action*` classes, `ActionsManager` |
| Calendar, DateText* | `UtilsDateTime` (civil calendar, MJD, text parsing — the POSIX branch) |
| Series, ReadLemmas, SeriesLemmas | `TimeSeriesData*`, `TimeSeriesDistributed`, `TimeSeries::SetCursor/Advance`, `Forcing`, `ModelHydro::AddTimeSeries/AttachTimeSeries…` |
| Run, RunLemmas | `ModelHydro::Run`, spin-up, `TimeMachine`, logging calls |
| Reset | `Reset`/`SaveAsInitialState` of every class |
| Settings, Author, Names | `SettingsModel` selection state machine, parameter setting, all factories and name tables |
| Structures | `AssignHydroUnitStructures` |
| Find | `Utils::Find` |
| TimeParams | `Parameter`, `ParameterModifier`, `ParametersUpdater` |
| Totals | `Logger` totals (`GetTotal*`) |
| UnitProps | `HydroUnitProperty`, lateral connection registration |
| Wiring*, BaseStructure, BaseLemmas | `ModelBuilder` (bricks, splitters, fluxes, links), `SettingsModel::Generate*` |
| Params* | component `SetParameters`/`RegisterParameters…`, `ModelHydro::UpdateParameters` |
| Basin | `SettingsBasin` authoring, `SubBasin::BuildBasin`/`AssignFractions`, `HydroUnit::IsValid` corrections |
| Assemble* | `Processor::ConnectToElementsToSolve`, order of `ProcessTimeStep`, container/process/flux identities, `IsNull`, flux weights |
| Valid, ValidLemmas | `IsValid` of every component, forcing attachment by `ModelBuilder` |

## What is not modelled

* IEEE rounding, NaN and infinity in hydrological arithmetic (only the clock is studied in doubles).
* Files: `FileNetcdf`, `ResultWriter` (dump of the logged arrays), `SettingsBasin::Parse`, `TimeSeries::Parse`,
  `Log`, the command line application `app/Hydrobricks.cpp`, and the Python bindings and package, except the part of the package
  that writes the structures of the predefined models (`models/*.py`, `modules/glacier.py`), which C64 models.
* The Windows branch of date parsing; locale-dependent behaviour of the C library beyond the scanner modelled in `DateText`.
* Memory lifetime: dangling pointers (`ClearTimeSeries` after attaching, settings destroyed before the model) and allocation failure.
  Null dereferences and out-of-range reads the code can reach *are* modelled as a distinct outcome.
* `TimeSeriesUniform`, `Connector`s between sub-basins (never instantiated by the builder), debug assertions.
* Logging of messages, except the count of "negative content" reports (C09).

## Simplifications, by model

* *Network*: rate slots are indexed by flux instead of position; the linking of slots is done after evaluation (no law reads
  a slot). The law of each process is a parameter of the balance theorems (any function), so they hold for every process.
* *Wiring*: sub-basin wiring is done after unit creation (only changes which error is reported first). Pointers are positions.
* *Run*: the physical step is a parameter (`step`), so the run theorems hold whatever a step computes.
* *Params*: parameter tables are lists per component, pointer identity = (component, position).
* *DateText*: ASCII texts.
* Each further simplification is stated in the comment of the definition concerned.

## Properties the code does not satisfy

Each is a theorem with a concrete witness (names in `MANIFEST.json`); the positive part is proved beside it.

* Snowpack::Reset resets neither processes nor output fluxes, so a re-run differs (`c44_cemaneige_differs`)
* GR4J/GR6J logged internal storage counts the ordinate already delivered (`c28_logged_counts_delivered`)
* bricks computed directly count static inputs of water/ice twice in the constraints (`c08_*`)
* a pre-loaded overflow is overwritten instead of increased (`c02_preloaded_overflow_exceeds`); an empty over-asked store zeroes or exceeds (`c02_empty_store_exceeds`)
* surface components compound their parent fraction on each weighted output (`c12_surface_second_output_loses`); cover-to-cover fluxes are unweighted (`c12_cover_to_cover_not_conserved`)
* degree units of hydro-unit properties test the stored instead of the requested unit (`c51_degree_*`)
* recurring actions fire on the cross product of months and days, on each sub-daily step; invalid months become January (`c36_*`)
* land-cover changes lose unmatched snow/ice, and mutate before being refused (`c33_*`, `c34_*`)
* glacier actions divide by a zero area or destroy ice on a zero row (`c38_*`); equal dates apply in reverse order (`c35_equal_dates_reversed`)
* Heun/RK4 create water with instantaneous outputs (`c07_instantaneous_output_creates_water`)
* initial fractions are captured before correction (`Basin.Demo.c61_reset_loses_correction`)
* series cursors ignore the step size and the time of day (`c40_*`, `c41_*`)
* time-varying parameters are not applied at the first step nor reset (`c47_*`)
* parameter requests silently ignored, half applied or refused (`c45_*`, `Par.Demo.c59_*`)
* second = 60 accepted (`c42_second_sixty`); compact times misread, impossible days accepted (`c60_*`)
* totals: content branch never matches, outlet by substring, unrecorded fractions (`c50_*`); sub-basin log pointers shifted (`c49_*`)
* vanished land covers keep feeding their targets (`c09_null_brick_creates_water`); a direct brick's inflow to a solved one is ignored by the constraints (`c10_direct_inflow_ignored`)
* the topology check misses solved → splitter → direct (`c11_splitter_not_checked`)
* Crank–Nicolson on a stiff store has no non-negative solution (`c14_cn_stiff_no_solution`)
* GR6J exchange and exponential store (`c29_*`), GR4J overfull start (`c19_overfull_start`), double interception (`c20_twice_counts_twice`), two-day steps (`c24_two_day_step`)
* lateral shares are checked one by one (`c31_shares_not_checked`), plain fluxes ignore weights above 1 (`c31_plain_output_loses`)
* generic-cover requests accepted and ignored (`c32_generic_request_ignored`)
* actions at the start date apply before the second step (`c35_start_date_late`)
* sub-daily steps in doubles: rows allocated ≠ steps processed (`c39_*`)
* forcing overrides survive an aborted run (`c54_override_survives_abort`)
* `outflow:overflow` is built but never linked (`c52_overflow_names_differ`), unknown brick/splitter types dereference null (`c52_unknown_brick_dereferenced`), misspelt contents accepted towards the outlet
* one-entry tables never report out of range (`c46_single_never_out_of_range`)
* wiring: dropped outputs, repeated names, hidden bricks, covers counted twice, capillary in a sub-basin refused (`WireDemo.c57_*`); generated structures: order of land covers matters, reserved names (`Wire.BaseDemo.c58_*`)
* repeated unit ids, absent covers receiving area, covers named like bricks (`Basin.Demo.c61_*`)
* a surface component's weighted outputs keep weight 1 unless a surface fraction is declared: snow melting on half a unit straight into a storage doubles (`AsmDemo.c63_surface_weight_lost`)
* HBV's documented option `snow_rain_process` has no effect (`c64_hbv_snow_rain_ignored`); with the documented `melt:cemaneige` and a glacier the models write structures that cannot be built (`c64_cemaneige_glacier`)
* a second land cover beside glaciers is accepted by the Python classes of Socont and GR but always refused at initialisation (`c65_socont_second_cover`, `c65_gr_second_cover`); refreezing with any melt but `melt:degree_day` is always refused (`c65_socont_refreeze_refused`)
* CemaNeige: below 1500 m the solid fraction is not the documented one (`c66_cemaneige_low`); the thermal state is not updated without snow (`c66_cemaneige_no_snow`)
* rain falling on a land cover of positive fraction up to 1e-8 is lost (`c67_sliver_loses_rain`)
* C69 `c69_exchange_repeated`: `ProcessRoutingGR4J::GetRates` books its groundwater exchange in the container at every evaluation (its comment assumes the brick is computed directly). In the solver version of GR4J/GR6J the routing is a solved brick, so Heun books it twice and RK4 four times per step; the sequential solvers once per evaluation of their root search.
* C70 `c70_exchange_held_back`: the groundwater exchange GR4J puts in its container is meant to back the discharge it produces (comment in ProcessRoutingGR4J.cpp:112-117), but the constraint on the discharge looks at the content with dynamic changes only, so water injected the same day is not counted and a large positive X2 is held back. Harmless for X2 ≤ 0.4 X3 (`c70_gr4j_published`).
* C71 `c71_refrozen_water_counted_again`, `c71_rain_counted_twice`: the limit on the outgoing fluxes of a container counts instantaneous inflows with the amount of the previous step until the process upstream has run (what refroze yesterday may melt today a second time), and counts rain reaching a snowpack twice (in the dynamic content and among the static inputs). HBV-96 with default options creates water in both cases and reports a negative content.
* C72 `ApartDemo.c72_coupled`: the constraints are enforced by sweeps over all hydro units until every rate of the basin is stable to 1e-8; a unit that passes for stable after two sweeps receives further sweeps when another unit needs them, and these can undo its overflow (2 mm to nothing, storage of 10 mm left with 12 mm). The outcome of a unit thus depends on the state of units with which it exchanges nothing.
* C73 `SetupDemo.c73_pond_lost`: no structure of HBV-96 has both a lake and land. A unit that mixes them gets the structure with most covers; its lake is dropped. When the lake's share is at most 1e-4 this is accepted silently and the share goes to another cover; above, initialisation fails (`c73_lake_refused`) with a message on fractions.
* reading results (C75): `get_mean_hydro_units_values` averages over the dates instead of the hydro units and fails for a single
  date (`c75_mean_over_wrong_axis`); a land cover without snowpack takes the snow of a cover whose name ends like its own
  (`c75_snow_of_another_cover`); with a single land cover `get_mean_swe` and `get_total_swe` fail, the name being taken letter by
  letter (`c75_single_cover`);
* parameter sets (C76): an alias given as a text is taken letter by letter (`c76_alias_as_text`); added aliases are not checked for
  uniqueness (`c76_added_alias_shadows`); constraints with an unknown operator such as `==` are accepted and never checked
  (`c76_unknown_operator`); a refused `set_values` has already changed the parameters before the refused one
  (`c76_partial_update`); default values and `change_range` are not checked, so values out of range and reversed ranges are accepted
  (`c76_unchecked_ranges`); lists of the wrong length are accepted (`c76_list_length`);
* connections between units (C77): with one decimal a share can be rounded to zero, which `set_connectivity` accepts and the model
  refuses (`c77_share_rounded_to_zero`); a unit draining equally to more than a hundred units is left without connection
  (`c77_too_many_receivers`); shares summing to 1.00001 are accepted (`c77_shares_above_one`); a row given twice doubles the
  connections (`c77_repeated_row`);
* forcing operations (C78): a calibrated correction factor multiplies the already corrected data at each evaluation
  (`c78_correction_compounds`), or never reaches the table when the spatialisation has no calibrated option
  (`c78_correction_ignored`); applying the operations twice corrects twice (`c78_applied_twice`) and doubles gridded tables
  (`c78_grid_twice`); PET is not recomputed when the temperature gradient changes (`c78_pet_stale`); a second run with other
  parameters keeps the forcing of the first one (`c78_stale_run`); an integer gradient is refused (`c78_integer_gradient`); with
  the station above the threshold the threshold rule jumps at the threshold (`c78_threshold_jump`); humidity, wind, net radiation,
  dew point, sunshine or pressure spatialised for PET make `set_forcing` fail (`c78_not_handed_over`, `c78_handed_over`);
* delta-h look-up tables (C79): below 5 km2 the highest band never melts (`c79_top_never_melts`), so once the other bands are gone the
  next rows are divisions by zero, `nan` (`c79_stuck`, `GlTableDemo.melts`); above 20 km2 the highest band thickens while the
  glacier melts (`c79_large_top`, `c79_top_grows`);
* names of units with a space ("square meter", the example of the documentation) are never recognised because spaces are removed before looking
  up (`c81_space_names`); members of the enumeration given as units are refused for no unit, °C, K, %, MJ/m2/d, W/m2, kPa (`c81_members_refused`);
  mm to km is not implemented (`c81_no_chain`).
* land cover changes matched by elevation: two units with the same integer elevation (aspect or radiation classes) share the first one
  (`c81_same_elevation`); matched by id: an id that no unit has is accepted (`c81_unknown_id`), the change is later applied through a null unit;
  covers changing at the same date are applied in the reverse order of loading (`c81_reversed_covers`), so that debris growing over ice in a fully
  glacierised unit is refused when the ice is loaded first.
* discretisation by quantiles: the last band does not contain its upper bound, so the highest cells (greatest slope, greatest radiation) of any
  catchment are in no unit (`c82_summit_lost`, `c82_quantiles`), and `number=n` gives n - 1 bands; cells beyond given bounds
  (`c82_given`, `c82_demo_bounds`) and flat cells (`c82_demo_aspect`) are lost without a message; the map is stored in 16 bits (`c82_too_many`).
* land covers from a map: a cover whose name is not one of glacier, forest, lake (such as `urban`, listed by the code) is registered but its area goes to the
  generic cover (`c83_unknown_cover`); initialising a cover twice leaves fractions that do not add up to one (`c83_twice`);
  initialising the generic cover empties it (`c83_rest_itself`); a unit without any area has all its fractions at zero (`c83_empty_unit`).
* scores on a period: the test on the observations is on their number only, so that a duplicated date and a missing one are
  accepted and different days compared (`c84_misaligned`); without a period, observations are compared by position whatever their dates (`c84_shifted`).
* calibration: the signed mean error `me` is minimised as it is, so that underestimation is preferred to a perfect simulation (`c85_signed_error`); errors
  of HydroErr missing from the list (`male`, `msle`, `mde`, `mdse`, `maape`) are maximised (`c85_unlisted`); when all sets are rejected, `get_best` reports a rejected set
  as the best (`c85_all_rejected`); a set that ran with a skill below -1e12 ranks below rejected sets (`c85_below_penalty`); the error for a thousand
  draws without a valid one is never raised, the test `i >= 1000` in `range(1000)` being unreachable, and an invalid set is returned (`c85_no_draw`).
* glacier mass balance: the recorded ice melt is the amount of the flux, which the core has already multiplied by the area of the unit over that of the basin and by the
  glacier fraction; the simulated balance takes it as millimetres over the glacier and misses the rest of the melt (`c86_core`, `c86_recorded_melt`, `c86_melt_demo`).
  With two glacier covers, millimetres are added (`c86_two_covers`), and units that have only one of them are left out (`c86_absent_cover`); consecutive years from a year
  column skip one day (`c86_gap`).
* snow cover: the key of the cache does not contain `hydro_units` nor the reading of dates, so that a request for some units answers a later one for all of them
  (`c87_cache_units`, `c87_cache_demo`); images with a time of day have no value on the last day of the run and those of the afternoon get the following day
  (`c87_hours`).
* reference metric: a period of parts of years is an error (`c88_part_of_year`), one with a single date is ignored (`c88_start_only`), gaps shift the days that are
  compared (`c88_gaps`).
* regridding: missing values count as zero (`c89_missing`), errors in the threads are lost and leave zeros (`c89_unknown_gradient`), times between the first and the
  last one are not compared (`c89_times_middle`), data by day of the year fail with an index error for short periods (`c89_short_period`).
* structure graph: a brick of the sub-basin replaces one of the units with the same name (`c90_same_name`); unknown targets are shown as bricks
  (`c90_unknown_target`).
* cast shadows: between the main directions distances along the rays are too long, by up to 41 %, so that shadows are too short (`c91_diagonal`, factor in
  `c91_rays`).
* potential radiation: an instant exactly at noon with the sun in the north is given the azimuth of the south (`c92_noon_north`); beyond the polar circles the
  computation stops with an error (`c92_polar`); a raster without any slope is refused with a message about the cosine (`c92_incidence_empty`).
* declared structures: a sublimation without a target is accepted, then refused by the generator (`c93_sublimation`); an empty list of targets, an unknown target and any
  place of a land cover are accepted (`c93_no_targets`, `c93_unknown_target`, `c93_cover_place`).
* unit attributes: flat cells (aspect -1) count as facing the north (`c94_flat`), and opposite slopes that cancel out give the aspect 0 (`c94_opposite`).
* project files: a forcing file given as null (`c95_null_file`) and a data parameter whose value is null (`c95_null_value`) pass the validation.
* hillshade: the two gradients are divided by the sizes of the pixels the wrong way round, so pixels that are not square give a wrong shade (`c96_not_square`).
* missing validity checks: unfed splitters, dividers without input, missing series (`ValidDemo.c62_*`)

## Wrong programs

`seeded/e*.py` hold the edits, `seeded/run.py` applies one edit to a scratch copy of the Lean project and rebuilds it,
`seeded/LOG.jsonl` records the outcome: edited definition, edit, claim broken, theorems that failed, theorems tightened.
