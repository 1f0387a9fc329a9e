# Formal model of esmini in Lean 4 — design

## 1. Trusted base

* Lean 4.33.0's kernel. No axioms of our own, no `sorry`/`admit`, no `native_decide`,
  no `bv_decide`. Theorems may depend only on `propext`, `Classical.choice` and `Quot.sound`.
* The hand translation of the C++ text in `/repo/EnvironmentSimulator` to Lean definitions. Nothing was
  compiled or run; the correspondence is by reading. Every model definition cites file and lines.
* General simplifications (each definition repeats the ones it uses):
  * `double` is modelled by `Int`/`Rat` (exact, scaled where a tolerance such as `SMALL_NUMBER = 1e-6`
    matters) or by an abstract ordered field; rounding, NaN and infinities are not modelled.
  * Heap objects are indices or records; `std::vector` is `List`/`Array`; logging has no effect.
  * Undefined behaviour (null dereference, out-of-bounds access) and non-termination are explicit outcomes
    (`none` / `Except`), never a default value.
  * `LOG_ERROR_AND_QUIT` (throws/exits) is an explicit error outcome.

## 2. Layout

`lean/Verif/<Area>/Model.lean`  code model, function by function, with citations  
`lean/Verif/<Area>/Lemmas.lean` helper lemmas  
`lean/Verif/<Area>/Theorems.lean` independent specification, property theorems, non-vacuity examples

Where the code does not have a property, the negation is proved on a concrete witness
(`..._fails` / `..._witness`), and the strongest true part is proved as `..._partial`.

## 3. Plan per property

| id | model | proof |
|----|-------|-------|
| C01 | element heap (parent, children, type, triggers) with fuel-indexed mutually recursive Start/Stop/End/Reset/Propagate/EvalTriggers as in StoryboardElement.cpp and Event::Start; log of announcements | invariant over all operations; every logged edge is legal |
| C02 | same, ghost counter of runs since last reset | inductive invariant `runs <= num_executions` and `standby -> num < max or no run yet` |
| C03 | same | invariant "running -> parent running" |
| C04 | same | post-condition of Stop by induction on the tree |
| C05 | same | invariant |
| C06 | same | fuel bound in terms of the tree suffices |
| C07 | same, Event::Start | direct analysis of Event::Start |
| C08 | same, trigger oracle recorded | invariant on log |
| C09 | Trigger/ConditionGroup/OSCCondition state machines | equality with OR/AND specification for edge-free, delay-free conditions; order dependence for edge conditions shown by witness |
| C10 | OSCCondition::Evaluate with arbitrary CheckCondition history | induction on histories |
| C11 | ConditionDelay | refinement of a sampled signal; induction over evaluation times |
| C12 | the CheckCondition loop schemas of each condition type | list induction; negation witnesses for the types whose loop skips or carries over |
| C13 | EvaluateRule | case analysis over Int/Rat |
| C14 | byte-level encoder/decoder | round trip by induction on packet list |
| C15 | byte-level decoder with bounds as explicit outcome | case analysis; ReadStringPacket has no check: witness |
| C16 | change-caching writer + timeline reader | refinement |
| C17 | Timeline functions | list induction; binary look-up past the end is wrong: witness |
| C18 | Replay navigation | invariant |
| C19 | OSCParameterDistribution | mixed radix bijection |
| C20 | Parameters | stack invariant |
| C21 | Entities: active list, pool, ids, names, trailer links, deleted addresses | invariant over all legal operation sequences; exact effect on vehicles with all their trailers; witnesses for the illegal cases the code does not refuse |
| C22 | LaneIndependentRouter: successor generation, weights, priority queue comparison, search, start and target checks; `Road::GetConnectingLaneId` arbitrary | successor list equals a separate step relation; Dijkstra invariant; termination by counting the keys that can be reached; cost of a whole route in closed form; negations where the code deviates |
| C23 | OSCAABBTree: boxes, merge, divide, iterative __build with explicit stack and shared pointers (heap), intersect, processCandidates | loop invariants for divide and __build (permutation, termination, no read outside), hull invariant, result is a permutation of the filtered product |
| C24 | LexicallyNormalizePath on component lists | induction; denotation in an abstract directory walk |
| C25 | SE_Option, SE_Options: AddOption, SetOptionValue, UnsetOption, ClearOption, ChangeOptionArg, ParseArgs, ApplyDefaultValues, Reset, GetOptionValue, GetOptionSet | independent reading of a command line as names, values and free arguments; induction over the parser loop and over sequences of calls |
| C26 | Config::PostProcessArgs, RemoveOptionAndArguments with unsigned wrap | list induction for separated occurrences; negations with witnesses |
| C27 | DetectCollisions over frames with any object sets and overlap relations | unconditional exactness of reported pairs and of the list of the earlier object; invariant over histories without comebacks; negation with witness |
| C28 | UpdateGhostMode, time part of ScenarioEngine::step and ScenarioFrame, restart by teleport | invariant over all frames; case analysis of one frame |
| C29 | GenerateKey on 32 and 64 bit words, UpdateDistance, GetDistance | bit-level injectivity; invariant on the origin of every cached value over all query histories; negation with witnesses |
| C30 | TransitionDynamics complete, ParseTransitionDynamics; over the reals | calculus on the three smooth shapes; case analysis for the step shape |
| C31 | LongSpeedAction::Start, Step, TargetRelative::GetValue | invariant over all runs; negation for the jump of the step shape at the start |
| C32 | GetRelativeLaneId/GetLaneIdDelta | omega |
| C33 | LightStateAction::SetVehicleLightState, ResetLight, CheckConflictingLights, HandleConflictingLights over the reals | negations for emission (only the last channel counts; reset leaves the flag), positive for colours with all channels >= 0.6; decision table for symmetry and exact set of conflicts |
| C34 | the angle functions over any ordered field with floor (exact fmod), and over the reals; rounding of the one sum as parameter | reduction by whole turns and uniqueness in an interval; negations for both ends of the half open intervals |
| C35 | Lane, LaneSection: AddLane, GetWidth, GetOuterOffset, GetInnerOffset, GetCenterOffset, GetTotalLaneWidthPrim, GetOffsetBetweenLanes | induction over the lanes inwards and over the lanes added; edges are sums of widths |
| C36 | lists of widths, heights, materials, lane offsets, elevations, super elevations, road types, sections; insertion and look-up with hint | sorted insertion, invariants of the searches in both directions; negations for the dependence on the hint at section starts |
| C37 | connections of a junction with null incoming roads and missing sections as undefined behaviour | list induction against a filtered list of links; negations for the null pointers |
| C38 | condition variable with notify_one and optional spurious wake-ups, any number of threads | invariant per thread over all traces; negations with a spurious wake-up and with two waiters |
| C39 | SplitString, SwapByteOrder | list induction |
| C40 | IsValidDateTimeFormat | case analysis |
| C41 | element heap as C01 | violated: witness; partial: the executions the code does grant |
| C42 | element heap as C01 | violated: witness that runs forever |
| C43 | ConditionDelay | violated: witnesses; partial while time moves forward |
| C44 | trigger model of C09 | violated for undelayed edge conditions: witness; proved otherwise |
| C45 | SplitQuotedString | violated: witness; partial |
| C46 | Timeline functions | list induction, specification by filter |
| C47 | DistributionRange loop | arithmetic; negation for steps not positive |
| C48 | Parameters setters and getters | case analysis, frame lemmas |
| C49 | ResolveParametersInString | loop against an inductive specification; negation for self reference |
| C50 | parseScenario callback, EraseCleanParams | two-pass invariant |
| C51 | ConnectTrailer, DisconnectTrailer, the actions | links mutual after disconnect; after connect if the trailer is free; witnesses otherwise |
| C52 | the loops of Object::Distance over tow and trailer links, single distances arbitrary | minimum over pairs by induction; null dereference for a towed target |
| C53 | OSCTriangle2D, all branches | equivalence with the absence of a separating side by sign computations with the two orientation relations (proof text generated, kernel checked); Helly's theorem gives the common point; negations with witnesses for the faulty branch |
| C54 | the loop over a line geometry | induction; negation for a geometry that does not start at s = 0 |
| C55 | ConfigParser::PutValue, ParseNode, ParseYamlFile, Parse, Config::ParseAndProcessConfigFiles over files given as entry lists | inductive meaning of files and command lines; equivalence with the loops, termination included |
| C56 | the static counter of loaded files | closed form of when an initialisation fails |
| C57 | CollisionAndRelativeDistLatLong without distances: rough check, height check, separating axes | projections in closed form, Helly's theorem on four strips; negation with witness for the rough check |
| C58 | CollisionAndRelativeDistLatLong with distances, PointCollision | closed form of projections, attained bounds |
| C59 | ScenarioPlayer::Frame with its loop, fuel and streams of inputs | descent on the gap between the two times; non-termination for step 0 |
| C60 | as C31, run as long as not ended | two phases: along the transition, then with limited acceleration towards the target; bound on the number of steps; negation for rate 0 |
| C61 | as C31 | interval integral of the transition by its point symmetry; negation for a second execution |
| C62 | LatLaneOffsetAction::Start, Step (offset, not heading) | second derivative of the shapes; invariant over all runs |
| C63 | as C31 | negation with witness |
| C64 | ObjectSensor::Update over the reals; array of maxObj places | polar coordinates of the object; induction over the list; negations for a mounting angle and for more than maxObj objects |
| C65 | the functions named, over the reals | algebra, quadratic minimisation |
| C66 | the functions named, over the reals | algebra; negation for one value of the discriminant |
| C67 | rotation matrices, Gauss-Jordan elimination, extraction of angles, over the reals | orthogonality and cofactors; invariant of the elimination; negations at 90 degrees |
| C68 | Lane::GetHeightBySAndOffset | entry found by the search; equation of the straight line; negations before the first entry, without width and at width 0 |
| C69 | GetClosestLaneIdx, Track2Lane, Lane2Track within a section | invariant of the search; uniqueness of the lane containing a place; negation for the nearest edge |
| C70 | Road::GetWidth in a section | both searches for the outermost lane; negation without centre lane |
| C71 | GetConnectedLaneIdAtS, GetLaneInfoByS (without snapping) | induction over the sections; negation for targets within the road |
| C72 | LightStateAction::Start, Step, GetRgbMinMaxColor over the reals; flashing automaton | induction over the steps; negations for steps that do not divide the transition time, for tiny transition times and for bright colours |
| C73 | TrafficLight::UpdateState, CheckValidLampModes, TrigByTrafficSignal on lists of characters | splitting is characterised by an independent relation; negation for texts with the same words |
| C74 | Controller constructor, Activate, DeactivateDomains on 32 bit masks; Object::AssignController, UnassignController(s); both controller actions | bitwise lemmas (getLsbD), case analysis; negations: assign action swaps lateral and longitudinal, activate action before 1.3 drops unspecified domains, UnassignControllers leaves the links |
| C75 | ActivateControllerAction::Start (both versions) | negation with witnesses for >= 1.3 (wrong controller deactivated) and < 1.3 (stops after the first conflict); partial: free domains, or at most one active controller before 1.3 |
| C76 | controller queries of Object, tests at the head of lateral and longitudinal actions, ScenarioEngine default motion | exact query results; negations: type ignored, first controller hides the second, LatDistanceAction tests the longitudinal domain; default motion iff under exclusivity |
| C77 | PolyLineBase::Evaluate with both searches, EvaluateSegmentByLocalS, AddVertex, FindPointAhead | search invariants; interpolation within tolerance; negation: a negative distance is reported back as is |
| C78 | PolyLineBase::Time2S | search invariants, interpolation; negation: start at the last vertex with a time within the tolerance reads past the end |
| C79 | speeds of FOLLOW and POSITION mode, PolyLineShape::Evaluate by time | induction over the vertices with the segment equation of motion (nonlinear arithmetic); negations: stand-still in FOLLOW overshoots, last vertex speed, single vertex |
| C80 | filter loop with in-place array and three indices, VerticesUnique | loop invariant; negation: signed heading difference |
| C81 | time to distance of clothoid and clothoid spline, sampling loop, Copy | exact formulas; negations: start time subtracted twice (for every start time but 0), copy loses end time, sampling of the last vertex and of short segments |
| C82 | CoxDeBoor recursion, EvaluateInternal for one coordinate, made-up knots | induction on the order: support, sign, partition of unity; negations: contributions up to 1e-6 dropped (a metre at coordinate 1e6), unclamped knots read out of bounds |
| C83 | vertices loop with slopes, limits and merging; search and step with end condition | induction over the entries: vertices = specified line; search is independent of history; negations: same slope, omitted times, constant last entry, skipped profile, copy |
| C84 | initial jerk, loop over vertices, single target with square roots | continuity as algebraic identities, order by sign analysis, square root as a function with sq²=x; negations: equal slopes, speed limit between joints, no solution, fallback, initial acceleration |
| C85 | road network with sections, lanes, links, connections; the loop of MoveAlongS with status and codes | spec of travelling as an inductive relation; induction over the road ends passed; negations: more than 8 ends, repeated shift, lane index of another section, missing lane |
| C86 | as C85 | the spec relation is additive and, for mutual links, reversible; transported by C85 |
| C87 | loops over the connections by route and by angle | induction over the connections; drift of the tolerance as a bound |
| C88 | search with nodes, visited links, first nodes, sign; lanes as functions of the network | invariant of Dijkstra's search over walks (inductive spec), induction over the rounds; negations: target entered at two ends, double connection, 100 rounds, merging lanes, sign, lane of the start |
| C89 | adjusted lane, direction, lane and lateral difference | by cases on the way found by C88; the direction is proved to be wrong for every pair of consecutive roads; negations by evaluation |
| C90 | action step in ℝ: transition, offset in the target lane, distance along it, heading | invariants over the steps, with the theorems on transitions (C30); cos and sin of atan2; negations by evaluation |
| C91 | geometries as functions from ℝ to poses, Fresnel integrals exact | derivatives (fundamental theorem of calculus for spirals), uniqueness by the mean value theorem; negation for curvatures below 1e-6 by a witness |
| C92 | polynomials, search for the parameter with its table, stepping of `Poly3` | derivatives, induction on the table and the loop; negations by evaluation |
| C93 | places beside a pose, change of road coordinate, lane curvature | derivatives, with C91 |
| C94 | spring in ℝ | eigenvectors of the update: the sequence is the sum of two geometric ones; the bound on the step is the exact one (negation for all longer steps) |
| C95 | action step in ℝ; the distance measured is an input; closed loop with an entity of constant speed | bounds by cases; convergence by the spring of C94 as long as no limit acts; negation by evaluation |
| C96 | action step in ℝ, road coordinate system; NaN explicit | bounds by cases, exact error after n steps without limits, convergence as in C95; negations for all inputs of the class |
| C97 | the complete step in ℝ, with all modes; distances and the speed of the master are inputs | two-phase profile: the roots are real, exactly one is in the time span, and it is the only profile; arrival: closed form of distance and speed after n steps, by induction; negations by evaluation or for all inputs of the class |
| C98 | the class `Vehicle` in ℝ with exact trigonometric functions | motion and no slip: trigonometric identities for every control; limits: induction over sequences of controls; braking, coasting, target speed, return of the wheels: closed forms or geometric bounds over n steps with limits; negations for all inputs of the class |
| C99 | the controller in ℝ; road distances and free space distances to the other entities are inputs | lead: induction over the entities; no collision and time gap: invariants over n steps of a vehicle behind another one in a lane; free driving: geometric bound; negations by evaluation |
| C100 | what the conditions compute for one entity, in ℝ; road distances, free space distances and the closest point of a trajectory are inputs | frame of the entity by trigonometric identities; headway and time to collision as solutions of the equations of motion; negations by evaluation |
| C101 | the checks and projections in ℝ, with the angle functions of C34 | whole turns by the minimality of the wrapped difference; relative speed as derivative of the relative position; negation by evaluation |
| C102 | the timestamps over a list of steps | induction over the steps; negation for time 0 and below by evaluation |
| C103 | the checks of the other entities and of the lanes; relative positions are inputs | list reasoning and linear arithmetic on lane numbers; negation by evaluation |
| C104 | the values of one entity in a step, in ℝ, with the angle functions of C34 | field arithmetic; whole turns by the wrapped difference; induction over the steps with the triangle inequality for the odometer; negation by evaluation |
| C105 | the loop over the trailers and the rear axle in ℝ | direction of atan2 and trigonometric identities, induction over the trailers; negation by evaluation |
| C106 | the list of samples over a list of states | induction over the states; negation by evaluation |
| C107 | the action over a trajectory given by what it says for each place and time, in ℝ | induction over the steps with linear arithmetic; headings by the wrapped difference; negations by evaluation or for all runs |
| C108 | sender and both receivers as functions on lists of packets | induction over the packets of a message, given by an inductive description of what is on the wire; negations for all messages of certain sizes |
| C109 | writer and reader on lists of bytes | induction over the messages |
| C110 | reporter, player and library calls as a state machine | invariant relating frame counter and offset, induction over the calls; negations for all later steps or by evaluation |
| C111 | the same state machine, content given by the ids of stationary objects | invariants over all calls; negations by evaluation |
| C112 | the conversion over rationals | properties of floor; integer division |
| C113 | table of radii and the loops over entities, rational positions | induction over calls, areas and entities |
| C114 | lexer, parser with its three stacks and evaluation over an abstract arithmetic | separate grammar with values; induction over the grammar that the parser run on a text ends with the operand on its stack; negation by evaluation |
| C115 | digit loop of the parser | induction over the digits against the positional value; negation for all numbers with an exponent |
| C116 | string detection of the parser and concatenation of the text | induction over the text; runs the parser lemmas of C114 up to the word |
| C117 | the six replacements, then C114 | each replacement distributes over the pieces of the text; negation by evaluation |
| C118 | printing with decimals, comparison of the text with true and 1 | negation for all expressions: a printed number has a decimal point |
| C119 | parser of C114 | invariant: open parentheses on the stack, frames match the open calls; induction over the text; negation by evaluation |
| C120 | rounding to six decimals over fractions | properties of rounding; negation for all small values |
| C121 | Start of the three actions on the declarations of `Verif.Params`, reading of the attributes | induction over the actions against a store with values; bounds for whole variables; negations for all cases of their kind |
| C122 | comparison by type with the rules of `Verif.Condition` | case analysis over types and rules against the order of the values |
| C123 | the loop over the segments with its stack, and joining | meaning of a path as a walk in a tree; invariant of the stack; completeness from working directories deep enough; weight of the stack for the length |
| C124 | list of candidates and the search in it, the file system as a predicate on places | equality of the first hit in the list of candidates and in the documented list of places; witness for the root directory |
| C125 | last dot and last separator, insertion of the number | decomposition of the path; decimal numbers are injective; witness for a dot in a directory name |
| C126 | `Step` of the controller on the payload as words, with the socket queue and the vehicle model of `Verif.Vehicle` | closed form of runs without messages by induction over the steps; negations for all messages of their kind |
| C127 | state changes collected by the reporter, one entry per action kind | run of changes and reports by induction against the list of started actions; exact conditions for the reported lane and speed |
| C128 | list of injected actions with their states; the ends of actions are free | runs of injections and frames by induction; place in the list decreases with each frame |
| C129 | lists of the library and of the player | membership, exact number of calls, equality with the expected calls |
| C130 | lane section with marks | equivalence with the specification by the mark in force |
| C131 | registry of `Verif.Entities`; vector of controllers as memory and size | equivalence without gaps; witnesses after a deletion and with two controllers |
| C132 | driver state, intelligent driver acceleration, lane choice, waiting time as one step over the reals | bounds of the acceleration formula; invariant over runs; lane availability against a description of the section |
| C133 | the loop over the vehicles and the brakes of one step as functions, runs of steps | monotone growth of the reaction over the loop; invariants over runs; exact reaction to one vehicle; witnesses for two |
| C134 | one step of the model as a function; both vehicles in a loop | invariant: the gap is at least the braking distance for the speed difference; kept by alarm, cruising and free steps |
| C135 | the checks as functions; positions of both vehicles over time from the laws of motion | the gap is never smaller than at the start or in the end; comparison of the final gap with the formulas of the checks |
| C136 | the steps of the three models | cases of a step with an invariant for the alarm; witnesses where the limits are passed |
| C137 | the loop of `Detect` as a fold | induction over the list |
| C138 | the vector of positions; effects on one position are parameters; undefined behaviour explicit | lookup before and after each call for every handle |
| C139 | both loops over the lanes | induction; equality with the filtered list |
| C140 | lookup with a null pointer as undefined behaviour; a static variable that is set once | cases; witness for the second call |
| C141 | the bit operations on natural numbers | bit by bit |
| C142 | the loop with the next number and the replacement of former ones; numbers wrap at 2^32 | invariant: all numbers are different and below the next one |
| C143 | both tests of the relative heading over the reals | quadrants of the relative heading by the signs of sine and cosine |
| C144 | the environment as a record of optional values; the sequence of `if`s of the update | each quantity separately; induction over the actions |
| C145 | nested comparisons; factors over the reals | number of limits below the value; monotonicity of the cosine |
| C146 | reading of numbers from a stream; report with the remembered offset | texts built from fields of digits; induction over the reports; witnesses |
| C147 | the cache of the writer and the comparison that leaves out records | invariant of the cache over frames |
| C148 | the members of the controller and its timer; random numbers as inputs | invariant over the steps; weighted mean of two speeds in the band |
| C149 | the members for the movement sideways, the angle to the road and the direction of the road | invariants over the steps; witnesses for lanes on the left and for other directions of the road |
| C150 | errors, spring and steering of the controller with the model of the vehicle of C98 | reduction of the run to a linear recurrence; its two factors; invariant region for small time steps; eigenvector for large ones |
| C151 | as C150 | sign of the argument of a complex number and of the angle of the velocity; witness for driving backwards |
| C152 | loop over the entities with its early ends; throttle; the vehicle of C98 | induction over the entities; sign of the weighted sum; invariant of the speed over runs; witnesses |
| C153 | the checks and the loop over the entities, with the generated list of lanes | the list always contains the lane of the other entity; exact condition of permission; witnesses |
| C154 | status of a waypoint; lists of roads of a route as waypoints are added; search loop with access checks | induction over the waypoints of the route; witnesses |
| C155 | update with removal, draw of the number, choice of places and lanes; random generator as an arbitrary sequence, shuffle as an arbitrary permutation | invariant over all runs; the number itself is never reached, one less is |
| C156 | decision on one vehicle, loop over the vehicles with missing entities | induction over the history of a vehicle and over the list; the access through a null pointer for a missing entity |
| C157 | sampling, distribution of lanes, distance check, loops over places and lanes; lane positions and paths as arbitrary functions | invariants of the loops, the sample as part of a permutation; triangle inequality; witnesses |
| C158 | measure and curve of the ellipse, tangents over the reals; root search over an ordered field with a round counter | algebra, derivative of the curve; loop invariant (change of sign) and intermediate value theorem; witness computed with rational numbers |
| C159 | sorted map of groups, loading of vehicles, choice of category by cumulative weight, choice of vehicle | induction over the vehicles and over the groups; witness for weight zero |
| C160 | `EvaluateRelation` on the moves of C85-C87 and the lane arithmetic of C32 | composition with the theorem on moves along the road; the target lane described by the count of lanes without 0; witnesses |
| C161 | `EvaluateRelation` with the orientation of the entity and of the road on the rotations of C67 | rotation matrices and uniqueness of heading, pitch and roll; witnesses on a slope |
| C162 | `SetInertiaPosMode`, `EvaluateHPR`, orientation part of `XYZ2TrackPos`, `OSCPositionLane` | equality of rotation matrices; mixed modes on level roads; witnesses on slopes and banked roads |
| C163 | `SetMode` on natural numbers bit by bit, `GetModeDefault` | three bit fields as in C141; equations for all numbers; witnesses |
| C164 | the loop over the children of a `RoutePosition`, the two constructors and `SetRoute...Position` | induction over the children; case analysis; witnesses |
| C165 | reading of `WorldPosition`, start of road geometries and elevations | both are the same rotation and shift; witness for roads without elevation |
| C166 | `Step` in the entity coordinate system in ℝ with the projection and intersection functions of C65 and C66, rigid motion on a straight road, attributes as text | frame of the reference entity; equations and bounds for all inputs; heading and direction of a step from the angle of its vector (missing: ways across the x axis, where the angle is rounded by 1e-6); the run of any length does not end; witnesses |
| C167 | the storyboard model of C01 to C12 with entity, domain mask and light kind of each action; the registration of events with entities as the reader does it; the masks of the action classes | invariant over all executions; frame for the actions that do not compete; witnesses for unregistered events, init actions, injected actions and the lateral distance action |
| C168 | reader of the controls, range check, domain mask, table of the entity, structure returned by the library | cases of the reader; last entry of a list; fold over any sequence of actions; witnesses |
| C169 | the logger as a state machine with console, files, buffer and callbacks; POSIX paths; formatting without arguments | induction over sequences of messages and over any operations; invariant for the content of files; witnesses |
| C170 | registered directories and loaded catalogs as state over the search of files; files by location | invariant that each loaded catalog is what a search would give now, over all sequences of operations; witnesses |
| C171 | reading of type elements into the map of C36, limit and type at a position, unit of the network, maximum speed of two controllers | induction on the elements and sections, exact rational conversion; witnesses for the unit |
| C172 | search for points along a dash with the geometric judgements as arbitrary functions of two distances, sequence of dashes of a line | invariant of a round of the search (distance of the candidate to the last good point equals the step), lexicographic termination, induction on the dashes; witness for the mark at the end |
| C173 | loop over the dots, explicit lines | induction on the number of spaces; witnesses |
| C174 | search over the segments with direction, distance to a segment by projection, position from the local s | step lemmas for the search, induction; Pythagoras and C65 for a segment; witnesses for the last segment and vertex |
| C175 | angle along a segment in the three modes | algebra on the circle with the angle functions of C34 |
| C176 | pattern, conversion of fields, time zone split off at the last sign; check of the fields from C40, seconds from the model of the environment | inversion of every reading step; both directions of the grammar |
| C177 | report as a function of the stored offset, sequence of reports | induction over the reports; witnesses at midnight, for the start at 0 and a second action |
| C178 | key states, step and activation over the vehicle model of the simple vehicle; road given by limit, number of lanes and movement along it as inputs of each step | induction over runs (handbrake implies standing, vehicle and entity together, limits kept), motion from the vehicle model; witnesses for opposite keys, a falling limit and the alignment |
| C179 | both functions for the road at the other end, the loop over the connections with a route, the loop for the closest heading, random numbers as inputs; look-ups of connections from C37, angles from C34 | loop invariants, existence of a matching connection; minimality up to 1e-6 per connection; witnesses for a second pass and for turning back |
| C180 | both functions and the test for a point in ℝ; the distance to a side is the one of C65, with the overlap test of C57 as called with distances | a common point rules out gaps, a gap makes a gap on an axis; closest points exist by compactness; at closest points each coordinate is extreme or the distance does not change with it; sides facing each other are parallel, so the points can be moved to a corner; the loops find the least distance of a corner to a side |
| C181 | both functions on exact numbers; the road coordinates of the corners (ds and dt from corner to corner) are inputs | the loops find a difference of least (largest) absolute value; signs; witnesses for a truck beside a car, and for points beside an object |
| C182 | the function with freeSpace; the distances of the single vehicles (C180, C181) are arbitrary functions | induction over the train: the candidate is a measurement and no measurement is smaller |
| C183 | action, setter, reader, viewer callback and ghost masks on 32 bit vectors | bits of the masks; cases of the coupling; witness with two trailers |
| C184 | the action with the position functions it calls, in ℝ; resolving the target is an arbitrary function | cases; the rear axle by the rotation of the offset, within 1e-6; witness on a trajectory |
| C185 | the test and its use in ℝ; the normals at the vertices are inputs of length 1 | distance to a normal as cross product; cases of its signs; witness on a shared normal |
| C186 | the step in ℝ on the vehicle model of C98 and the angles of C63 | direction by sine and cosine in the interval of half turns; limits keep the sign; monotony of the wheel angle |

## 4. What is modelled and what is not

* **Storyboard** (`Verif/Storyboard`): StoryboardElement.cpp/.hpp, Storyboard.cpp (Event, Maneuver, ManeuverGroup,
  Act, Story, StoryBoard) as one heap of elements. Actions are opaque: an oracle says when they end or decline
  to start. Triggers are an oracle per step. Not modelled: ghost restarts (`ScenarioEngine::ResetEvents`),
  element callbacks, names.
* **Condition** (`Verif/Condition`): Trigger, ConditionGroup, OSCCondition::Evaluate, CheckEdge, ConditionDelay,
  EvaluateRule, and the entity loops of all by-entity conditions. The measured values are arbitrary inputs.
  `TrigByState` is an arbitrary condition value.
* **LaneArith**: GetRelativeLaneId, GetLaneIdDelta and the relative lane change target.
* **Util**: SplitString, SplitQuotedString, SwapByteOrder, IsValidDateTimeFormat (field check), path helpers,
  LexicallyNormalizePath (POSIX branch). Characters are bytes without locale.
* **Dat**: byte level of the recording (Codec), and the change-only recording of object states with the
  reconstruction of timelines by the replayer (Recording). Light states, ghost restarts, traffic lights, environment
  and odometer are not modelled; a text, number or id is an abstract value there.
* **Replay**: `Timeline<T>`, and navigation (`GoToTime` and the like, start and stop times).
* **Params**: declarations, look-up, setters and getters, restore points, the order in which the scenario reader opens and
  closes scopes, references in text, and the declaration callback. Conversions and `${...}` evaluation are arbitrary.
* **ParamDist**: enumeration of permutations and of ranges; XML parsing is not modelled.
* **Entities**: registry operations, look-ups, SE_DeleteObject, trailer links, the loops of Object::Distance with freeSpace. Geometry of single objects, controllers and dirty bits are not modelled.
* **Router**: LaneIndependentRouter.cpp except GetWaypoints. The priority queue is any container meeting the contract of std::priority_queue for the comparison of the code; the connecting lane function is arbitrary; road and junction tables are look-up functions.
* **AABB**: OSCAABBTree.cpp except curve2triangles and findPoints, OSCTriangle2D.hpp completely, the line loop of SwarmTrafficAction::createRoadSegments.
* **Options**: CommonMini.cpp 2436-2896 except printing; table of option names as a parameter.
* **Config**: Config.cpp 91-279, ConfigParser.cpp; the YAML reader and the file system are not modelled, a file is its list of entries.
* **Collision**: ScenarioEngine.cpp 1146-1196, Entities.cpp 387-638. Heading as cosine and sine with c²+s²=1 over the rationals.
* **Engine**: time part of ScenarioEngine.cpp 51-66, 120-209, 564-572, playerbase.cpp 183-216, 269-312; distance cache ScenarioEngine.cpp 1223-1312, ScenarioEngine.hpp 190-208. What the storyboard does in a step and what Position::Distance measures are inputs.
* **Transition**: TransitionDynamics OSCPrivateAction.cpp 59-294, ScenarioReader.cpp 2318-2336; LongSpeedAction OSCPrivateAction.cpp 1161-1326; LatLaneOffsetAction 1065-1144. Doubles are real numbers. Nothing else changes the speed of the entity; performance limits are constant; heading during a lane offset is not modelled; lane offset targets are absolute.
* **Geom**: angles CommonMini.cpp 336-429; points, lines, circles, frames 431-817 (not IsPointWithinSectorBetweenTwoLines, DistanceFromPointToLine2D); rotations 1668-1959 (not ZYZ2EulerAngles, RotateY); IdealSensor.cpp 32-160. Exact arithmetic; sine, cosine, arc functions and roots are the mathematical ones. In doubles the argument of `acos` in the sensor can exceed 1 by rounding and the result is then NaN and the object not detected; this is not modelled.
* **Road**: Polynomial RoadManager.cpp 713-725; Lane widths, heights, materials 1251-1408; Road::GetLaneSectionIdxByS 1734-1802, GetLaneInfoByS 1804-1860 (not the snapping to another lane type), GetSpeedByS/GetRoadTypeByS 2001-2050; LaneSection 2118-2153, 2236-2420, 8703-8744; AddElevation/AddSuperElevation 2715-2739; GetLaneOffset 2997-3014; GetConnectedLaneIdAtS 3127-3185; GetWidth 3303-3347; AddLaneOffset 3353-3373; AddLaneSection 3406-3417; GetZAndPitchByS, UpdateZAndRollBySAndT 3419-3514 (indices, height and roll; not pitch and derivatives); Track2Lane 8780-8821 and Lane2Track 9735-9750 (lateral part). Numbers are exact rationals. Not modelled: geometry of the reference line, OpenDRIVE parsing, road marks, lane boundaries as OSI points.
* **Junction**: RoadManager.cpp 5743-5920 and Road::GetConnectingLaneId 1896-1969 for a road linked to a junction. Not modelled: controllers, choice of a random road.
* **Semaphore**: SE_Semaphore, CommonMini.hpp 900-940: the mutex makes each call one step; waiting releases it. Not modelled: memory ordering, fairness.
* **Signal**: TrafficLight, RoadManager.cpp 436-515; TrigByTrafficSignal OSCCondition.cpp 718-723. Not modelled: phases of traffic signal controllers, rendering.
* **Lights**: LightStateAction OSCPrivateAction.cpp 3126-3409, 3546-3591; GetRgbMinMaxColor CommonMini.cpp 1299-1388; real numbers, `pow` as the real power. Not modelled: parsing of colours, combined status in esminiLib.
* **Control** (`Verif/Control`): Controller.cpp 28-69, 98-149, 177-200; Entities.cpp 125-300; OSCPrivateAction.cpp 738-862, 2101-2108; ScenarioEngine.cpp 211-225, 600-628; CommonMini.cpp 216-233. Masks are 32 bit words. Left out: aligning the heading on (de)activation, overrides of Activate in derived controllers, log messages.
* **Traj** (`Verif/Traj`): RoadManager.cpp 12469-12900, 12981-13075, 13234-13350, 13436-13497, 13576-13658, 13662-13692, 13880-13962, 14152-14181; ScenarioReader.cpp 1483-1501. Exact rationals; left out: orientation, z from the road, spiral geometry, time stamps of NURBS vertices, FindClosestPoint, `pos_mode`. The number of knots is assumed to be control points + order; the code does not check it.
* **Profile** (`Verif/Profile`): OSCPrivateAction.cpp 1327-1697, 1714-1764, 1783-1789; OSCPrivateAction.hpp 303-392. Any ordered field (rationals to run the witnesses, reals with `Real.sqrt` in `single_target_smooth`). The action's limits are a parameter; parsing of entries and limits is not modelled.
* **Move** (`Verif/Move`): RoadManager.cpp 9797-9884, 10024-10299, 10310-10332, 10334-10632. The heading is reduced to forwards or backwards; which connection a junction offers and which lane is closest where a lane ends are parameters; lane types, routes within MoveAlongS and coordinates are left out.
* **Path** (`Verif/Path`): RoadManager.cpp 3187-3255, 5886-5925, 5975-6093, 6095-6372, 11708-11817. Links are identified by road and end; the lane functions are parameters of the network (modelled in Junction and Road); headings are reduced to along or against the road.
* **LaneChange** (`Verif/Transition/LaneChangeModel`): OSCPrivateAction.cpp 872-1045. The road is reduced to the target lane: offset from its centre and distance along it.
* **Curve** (`Verif/Curve`): RoadManager.cpp 713-732, 823-985, 1035-1214, 9648-9692, 10310-10332, 12021-12036, RoadManager.hpp 234-454, odrSpiral.cpp 217-233. Not modelled: the rational approximations of the Fresnel integrals (odrSpiral.cpp:158-206), elevation and superelevation in `Track2XYZ`, the relocation of positions beyond the centre of a curve in `DistanceToDS`.
* **Spring** (`Verif/Spring`): CommonMini.hpp 1290-1383, OSCPrivateAction.cpp 1805-1958, 1972-2027, 2082-2103, 2225-2245, 2282-2351. Not modelled: measuring the distance, the entity coordinate system and the rigid motion of lateral distance actions.
* **Sync** (`Verif/Sync`): OSCPrivateAction.cpp 2541-2553, 2634-2661, 2681-3097. Not modelled: measuring the distances, copies of the action for ghosts.
* **Vehicle** (`Verif/Vehicle`): Controllers/vehicle.cpp 25-255, vehicle.hpp. Not modelled: z and pitch, setters of plain values.
* **Acc** (`Verif/Acc`): Controllers/ControllerACC.cpp 32-268. Not modelled: measuring of distances, alignment of the heading, sensor display.
* **Measure** (`Verif/Measure`): what the entity conditions measure, OSCCondition.cpp 731-1709, with RoadManager.cpp 11174-11293, 11487-11495, 11603-11619, 11819-12004, Entities.cpp 84-118, 1329-1409 and ScenarioEngine.cpp 242-257, 363-391. Not modelled: Position::Delta (C89) and free space distances (C52) behind the distances, FindClosestPoint, logging.
* **Ground** (`Verif/Ground`): ground truth of an entity after a step, ScenarioEngine.cpp 629-781, the placing of trailers and of the rear axle, ScenarioEngine.cpp 271-359, Entities.cpp 1829-1851, CommonMini.hpp 340-364. Not modelled: pitch and roll, wheel friction, ghosts during a restart, position relative to the road, loops of more than 100 trailers.
* **Follow** (`Verif/Follow`): the action that follows a trajectory, OSCPrivateAction.cpp 416-465, 486-644, OSCPrivateAction.hpp 1142-1225, with RoadManager.cpp 14213-14267, 15394-15400. Not modelled: the choice of the interpolation mode, Freeze, the lateral offset, z, pitch and roll; what the trajectory says for a place or a time is an input (C77 to C82).
* **Osi** (`Verif/Osi`): the reporting of OSI ground truth, OSIReporter.cpp 33-45, 280-315, 329-455, 507-671, 1003-1009, 3393-3403, OSIReporter.hpp 233-267, playerbase.cpp 184-248, 301-304, 339-364, esminiLib.cpp 1683-1750, 1868-1900, 2241-2265, the receivers udp_osi_common.py 57-105 and osi_receiver.cpp 136-160 and the reader osi2csv.py 132-141. Not modelled: protocol buffers (a message is a list of bytes, its content ids and one number), compression, sockets, ghost restarts, sensors and traffic commands.
* **Expr** (`Verif/Expr`): expressions, externals/expr/expr.h (lexer, parser, evaluation), simple_expr.c and Parameters.cpp 400-473. Arithmetic is abstract in C114, C116, C117, C119, exact fractions in C115 and C120. Not modelled: macros `$(...)`, values of assignments, comments in C119, memory allocation, the substitution of parameters before the evaluation (see C49).
* **Var** (`Verif/Var`): OSCGlobalAction.cpp 151-236, ScenarioReader.cpp 2372-2420, CheckCondition of TrigByParameter and TrigByVariable, on top of Params and Condition. Sums and products are exact; `int` has its range, beyond is undefined.
* **File** (`Verif/File`): CommonMini.cpp 245-335, 1200-1221, 1263-1297, 1402-1502; OSCParameterDistribution.cpp 387-393. Paths are lists of characters; existence of a file is a predicate on places (no symbolic links); drive letters are excluded by hypothesis. Not modelled: ValidateAndCreateFilePath, the lists of special directories at the call sites.
* **Udp** (`Verif/Udp`): ControllerUDPDriver.cpp 176-363. A message is its words, the meaning of a word as a double is a parameter. Not modelled: sockets, height and pitch of the vehicle model, headings are not normalized, steps of at most 1e-6 s between messages.
* **Tc** (`Verif/Tc`): OSITrafficCommand.cpp 16-236, OSIReporter.cpp 3290-3311, with the conversion of distances from `Verif.Transition`. Poses are opaque; the serialized copy is not modelled.
* **Lib** (`Verif/Lib`): PlayerServer.cpp 49-102, 234-253, ScenarioEngine.cpp 177-191, playerbase.cpp 184-286, esminiLib.cpp 62-89, 1163-1185, 1372-1413, 1532-1632, 2434-2455, RoadManager.cpp 4380-4411. What an injected action does to its object is not part of it; the server thread and UDP reception of injected actions are not modelled.
* **Nd** (`Verif/Nd`): ControllerNaturalDriver.cpp 29-52, 117, 130-604. The vehicles around and their free distances, and whether another driver is about to take the lane, are inputs of each step; the lane change itself is left to the injected action.
* **Alks** (`Verif/Alks`): ControllerECE_ALKS_RefDriver.cpp 69-494. The results of `Position::Delta` are inputs; log output is left out.
* **R157** (`Verif/R157`): ControllerALKS_R157SM.cpp 283-355, 417-424, 444-467, 480-565, 602-620, 673-713, 1309-1551: the models `Regulation`, `RSS` and `FSM`. What `Process` measures and what `CheckSafety` says are inputs; the model `ReferenceDriver` and cut-outs are left out. Real numbers.
* **Rm** (`Verif/Rm`): esminiRMLib.cpp (handles, lanes by index, validity records, option values, modes, look-ahead direction), RoadManager.cpp 3518-3550, 6895-6945, 7065-7075, CommonMini.cpp 842-860, esminiLib.cpp 270-280. What a call does to one position is a parameter; that a lane section is found is assumed.
* **Env** (`Verif/Env`): OSCEnvironment.cpp, OSCGlobalAction.cpp 48-52, OSIReporter.cpp 3789-3960, PacketHandler.cpp 62-76, 441-475, CommonMini.cpp 947-978, 1009-1029. Parsing of the XML (ScenarioReader.cpp 5565-) and `GetEpochTimeFromString` are left out. Real numbers; whole seconds for time stamps.
* **Sloppy** (`Verif/Sloppy`): ControllerSloppyDriver.cpp 59-201, CommonMini.hpp 1239-1288. The distance moved in additive mode is not modelled; random numbers are inputs within the limits given to the generator.
* **Ref** (`Verif/Ref`): ControllerFollowReference.cpp 86-147, ControllerFollowReference.hpp 29-101, on the model of the vehicle (`Verif/Vehicle`). Activation, parameters, vertical position and wheels are left out; a curved path of the reference entity is not treated by the theorems.
* **Loom** (`Verif/Loom`): ControllerLooming.cpp 290-386, 404, on the model of the vehicle (`Verif/Vehicle`). The measurement of distances, the search for a tangent point and the steering are inputs.
* **FollowRoute** (`Verif/FollowRoute`): ControllerFollowRoute.cpp 106-126, 201-235, 309-385, 398-454, RoadManager.cpp 14582-14747. Paths, the connection of lanes and the distances are inputs; the lane change action is C90.
* **Swarm** (`Verif/Swarm`): OSCGlobalAction.cpp 431-463, 555-885 (without controllers, names, speed and trailers), OSCUtils.hpp 21-37, OSCSwarmTrafficGeometry.cpp 40-125 and 243-291, VehiclePool.cpp 76-145 and 183-218. The places found on the ellipse, paths between positions and positions of lanes are inputs of the first part; the search over triangles is C53, the pieces of road C54. A, B, C, vA, vB, vC, checkRange and curve2triangles are not modelled.
* **Place, lanes and roads** (`Verif/Place/Lane*`): RoadManager.cpp 14394-14484 on top of Move and LaneArith. Neither entity has a route; lateral lane centres are a given function.
* **Place, orientation and reading** (`Verif/Place/Ori*`, `Mode*`, `Read*`): RoadManager.cpp 9557-9592, 10827-10930, 10949-11113, 11366-11434, 14486-14573, 12419-12466, OSCPosition.cpp 18-321, ScenarioReader.cpp 1862-1920, 2102-2226. The orientation of the road at the position is an input. The place on the route, snap to the route and trajectory positions are left out.
* **Lateral distance, entity coordinate system** (`Verif/Spring/Entity*`): OSCPrivateAction.cpp 2028-2094, 2097-2281, ScenarioReader.cpp 3108-3156. The limit of the acceleration is not zero; rigid motion on one straight road.
* **Competing actions** (`Verif/Storyboard/Exclusive.lean`, `Domains.lean`): the loops of `Event::Start`, ScenarioReader.cpp 5285-5330, the constructors in OSCPrivateAction.hpp.
* **Override** (`Verif/Override`): ScenarioReader.cpp 3695-3957, OSCPrivateAction.cpp 3593-3676, Entities.cpp 63-69, esminiLib.cpp 188-226. Numbers are rationals, π a rational parameter.
* **Text log** (`Verif/Log`): logger.hpp 141-159, logger.cpp 37-61, 106-136, 138-270, 299-383, esminiLib.cpp 463-466, 988-998, 1925-1928. Files are lists of messages; what exists and can be opened is fixed; formatting with arguments is given by its result.
* **Catalogs** (`Verif/Catalog`): Catalogs.cpp 18-108, Catalogs.hpp 40-145, ScenarioReader.cpp 222-262, 286-358, 1546-1566, 1594-1637, 1667-1730, CommonMini.cpp 1223-1251; the search of files is that of `Verif/File`. An element is its name, the attribute `name` and a number for the rest; files do not change during the run. The making of objects from elements is not modelled.
* **Speed limits** (`Verif/Limit`): RoadManager.cpp 1712-1720, 2001-2050, 2194-2206, 3112-3125, 3789-3888, 11194-11211, RoadManager.hpp 2882-2915, 3054-3057, esminiLib.cpp 1986-1995, ControllerInteractive.cpp 53-68, ControllerOffroadFollower.cpp 79. Numbers are exact; `max` is a number or a word.
* **Road marks** (`Verif/Mark`): RoadManager.cpp 7589-7753, 8244-8451, 4555-4558, RoadManager.hpp 588-675. Points are distances along the road; `CheckLaneOSIRequirement`, the test for steps in height and the density of the surface are arbitrary functions. The search for the points of lanes and lane boundaries (7792-8192) uses the same function but does not shorten its step at the end of the section; it is not modelled.
* **Closest point and orientation** (`Verif/Closest`): RoadManager.cpp 12494-12502, 12551-12594, 12776-12900. Numbers are real; a vertex is x, y and s. The polylines of C174 have distinct neighbours at increasing s.
* **Date and time** (`Verif/Clock`): CommonMini.cpp 867-945 on texts, OSIReporter.cpp 3850-3876. The regular expression is matched field by field, `std::get_time` reads one up to the maximal number of digits (some older standard libraries insist on two digits), `timegm` is a parameter.
* **Interactive controller** (`Verif/Interact`): ControllerInteractive.cpp 51-183, Controller.cpp 109-113 and 202-208 over `Verif/Vehicle`. Real numbers; the entity is position in the plane, heading, speed and wheel angle. Not modelled: elevation, the junction selector, parameters of the controller, deactivation.
* **Choice at junctions** (`Verif/Choice`): RoadManager.cpp 10091-10206, 15206-15253, 5944-5973, over `Verif/Junction` and the angles of `Verif/Geom`. Roads are identified by their ids; the headings at the ends of connecting roads are inputs. The move onto the chosen road is in `Verif/Move`.
* **Free space distance** (`Verif/FreeDist`): Entities.cpp 387-553, 555-638, 640-792 in ℝ over the distance to a segment of `Verif/Geom`, and 794-1041 on exact numbers with the results of Position::Delta as inputs. Entities.cpp 387-553 is modelled here in ℝ as it is called by FreeSpaceDistance, without the rough checks; the outcome of the test at line 929 is an argument. Sides are at least 2e-6 long. Not modelled: the mapping of corners to the road (XYZ2TrackPos).
* **Distance of trains to a point** (`Verif/Entities/PointDist.lean`): Entities.cpp 1198-1328 with freeSpace; what is measured from one vehicle is an argument. Without freeSpace the call is passed on to Position::Distance, not modelled here.
* **Visibility** (`Verif/Visible`): OSCPrivateAction.cpp 3099-3116, ScenarioReader.cpp 3976-4007, Entities.cpp 340-344, viewer.cpp 886-912, playerbase.cpp 1354-1359, ControllerFollowReference.cpp 184-186. Not modelled: clearing of the change bits between steps (ScenarioEngine.cpp 1314-1330).
* **Teleport** (`Verif/Teleport`): OSCPrivateAction.cpp 2370-2438, RoadManager.cpp 7450-7550, 9996-10022, 11675-11687, 14241-14256 (update of s and place) and Entities.cpp 1853-1868. EvaluateRelation is an arbitrary function; AlignTrailers and CalcRoutePosition are noted with the location they are called for.
* **Place along a segment** (`Verif/Geom/Sector.lean`): CommonMini.cpp 594-608, 733-769 and RoadManager.cpp 9161-9163, 9199-9203 in ℝ. Not modelled: choice of the normals and the comparison of segments and roads (RoadManager.cpp 9060-9160, 9204-9290).
* **Offroad follower** (`Verif/Offroad`): ControllerOffroadFollower.cpp 71-110 in ℝ over `Verif/Vehicle`. Not modelled: the mapping of the new place to the road, activation (113-128).

## 5. Where the code disagrees with a property

Each item is proved on a concrete witness.

* C12: rule "all" is wrong for headway, time to collision, reach position, collision, end of road, stand still and
  off road; rule "any" is wrong for relative clearance.
* C41: `num_executions_` of an event is not reset when its group is executed again.
* C42: an action that declines to start keeps its event running forever.
* C43: after the clock is set back, the condition history is no longer sorted; evaluating twice at the same time can
  read outside it.
* C44: undelayed edge conditions behind a false condition miss their edge.
* C15: string packets are read without a bounds check; a truncated payload is completed with zeros.
* C16: a value equal to the recorder's initial value (no road, no name) is not recorded, so the replay shows a later or
  earlier value instead; a changed outline or box colour is not recorded; a text that becomes empty makes the whole
  recording unreadable.
* C17: the binary look-up returns the last but one entry from the time of the last entry on.
* C46: the index for cutting a timeline is one for every timeline with a single entry, whatever its time.
* C18: a jump to a time between two frames selects the later frame but reports the time asked for; playing on from there
  skips a frame. Setting the start time back moves the frame but not the time. A stop time behind the last frame selects a
  frame that does not exist.
* C19: the number of permutations is computed modulo 2^32.
* C47: a step width that is zero, missing or negative makes the loader hang.
* C20: most elements open two restore points (CreateRestorePoint and addParameterDeclarations) but close one; maneuvers and
  environments close none. The parameters of a vehicle with a trailer, of a story with a controller or catalog maneuver
  inside, and of maneuvers stay declared afterwards and hide global parameters. A declaration does not shadow a parameter
  that was set before.
* C49: a parameter whose value contains a reference to itself makes ResolveParametersInString grow the text for ever.
* C21: indexExists is inverted; removing a vehicle deletes deactivated trailers but leaves them listed; removing a trailer leaves its towing vehicle with a dangling link; adding an object twice lists it twice; SE_DeleteObject on a deactivated object reports success without effect. The callers must avoid these (`Legal`).
* C51: connecting a trailer that another vehicle tows leaves both vehicles linked to it; connecting to a vehicle without hitch marks the trailer as towed.
* C52: Object::Distance with freeSpace to a towed vehicle dereferences null (`while (target_obj->TowVehicle()) target_front_obj = ...`); in road and lane coordinates the trailers of the target are never measured.
* C22: the way on the target road is not counted when that road is entered directly from a junction (links to junctions have no contact point); a target behind the start on the same road and lane gives an empty path though a route exists; a direct junction whose number equals the number of a following road is driven back into (`direct_junction_fails`).
* C53: intersection2d passes the corners (b2, c2) instead of (b2, a2) to the edge test when the first corner of the first triangle is beyond side a2-b2 only. Common points are missed, disjoint triangles reported, and the answer depends on the order (`overlap_missed_fails`, `overlap_invented_fails`, `overlap_asymmetric_fails`). With the other corner a random comparison shows no error.
* C54: the loop starts at the position of the geometry along the road (gm->GetS()) although distances are relative to the geometry, so later line geometries are covered in part or not at all.
* C23: Tree::build with no boxes on a tree built before keeps the old box (`rebuild_empty_fails`); the callers only build fresh trees.
* C25: an option named a second time without its value reads as the earlier value while it counts as not set (`bare_repeat_witness`); with a default value the default is put behind the earlier value (`default_after_value_witness`); setting an undeclared option without value makes later values be refused (`flag_then_value_fails`).
* C26: of two overridden options directly one after the other only the first is removed (`adjacent_fails`); an incomplete window option runs out of the vector (`incomplete_window_witness`); the positions found before the first removal are used for the later ones (`stale_index_witness`).
* C56: loadedFilesCount is static and never reset, so after 100 loaded config files in one process every further initialisation with a config file quits with the message about a circular dependency (`initialise_limit_fails`).
* C27: the collision list of an object that leaves the scenario is not cleared and only the list of the earlier object of a pair is inspected; an object added again keeps a former collision for ever (`stale_witness`) or has the other twice (`duplicate_witness`).
* C29: all types of distance of a pair share one time of next update, so a second type asked for at the same time is answered by 10000 (`other_type_witness`); beyond 500 m the square of the distance is stored and answered as distance, for 3 s even if the objects approach (`squared_witness`, `squared_kept_witness`); the reverse direction at time 0 is answered by 10000 (`reverse_witness`).
* C57: the rough check compares the distance of the reference points with the diagonal of the summed dimensions and does not consider the offset of the boxes; overlaps are missed even with the reference points inside the boxes (`missed_witness`). They are not missed if no corner is further from its reference point than half that diagonal (`touching_reported_partial`).
* C59: SE_StepDT(0) sets the fixed time step to 0, which is also the step of the ghost running alone; if the ghost is restarted in such a step the call never returns (`zero_step_hangs`).
* C31: with the step shape `Start` sets the speed to the target at once, without regard to the acceleration limits (`start_jump_fails`). In the steps the limits hold up to 1e-6.
* C60: with dimension rate and a rate below 1e-6 the action never ends and never changes the speed (`zero_rate_never_ends`).
* C61: the first `Start` of a speed action over a distance overwrites the distance by the duration; a second execution takes the duration for the distance (`repeated_distance_fails`: 150 m become 10 m).
* C63: a target relative to the entity itself is computed in each step from the present speed: +5 m/s from 10 m/s ends at 17.5 m/s (`relative_to_self_fails`).
* C34: `GetAngleInIntervalMinusPIPlusPI` and `GetAngleDifference` keep both -pi and pi (`intervalPI_half_open_fails`); `GetAngleInInterval2PI` gives exactly 2*M_PI for a tiny negative double (`interval2PI_rounding_fails`).
* C64: the angle to an object is computed with `acos` and has no sign, but is compared with the mounting angle: the field of view is mirrored (`detects_mirrored_fails`); a sensor looking left also detects objects on the right (`detects_wrong_side_fails`) and one looking right does not detect what it points at (`detects_right_fails`). `maxObj` is not checked: memory behind the list is overwritten (`update_overflow_fails`). Yaw rates are wrapped like angles (`yaw_rate_fails`).
* C66: at a discriminant of exactly -1e-6 the root of a negative number is taken (`circle_nan_fails`); two equal points as line divide by zero (excluded by hypothesis). `Global2LocalCoordinates` needs the negative heading (`frames_positive_fails`); all callers pass it.
* C67: `InvertMatrix3` does not exchange rows and gives up on invertible matrices (`invert_ninety_fails`); the caller ignores this and continues with the zero matrix (`relAngles_ninety_fails`; in doubles cos(pi/2) is 6e-17 and not 0, so there the result is ill-conditioned instead). The replacement of small entries turns a heading of 90 degrees into one with tangent 1e6 (`compose_ninety_fails`) and lengthens vectors (`rotateVec_ninety_fails`).
* C33: the emitting flag is overwritten for each colour channel, only the last one (blue) counts, so a red lamp is reported as not emitting (`emitting_fails`); switching on one indicator turns the other dark but leaves its flag (`reset_emitting_fails`).
* C36: at exactly the start of a lane section the section found depends on the hint (`section_hint_independent_fails`), likewise the roll at the start of an entry and the height within 1e-6 before it; a hint out of range gives no section although s is on the road (`section_hint_out_of_range`); before the first lane offset the curve of the first one is used from s = 0 and jumps (`laneOffset_before_first_jumps_witness`); materials less than 1e-6 apart may end up unsorted (`addMaterial_sorted_fails`).
* C35: the derivative of the total width is 0 if any inner lane has no width entry (`totalPrim_fails_witness`).
* C37: `GetRoadConnectionByIdx` dereferences the lane section of a connecting road without one (`byIdx_without_section_fails`); `GetNoConnectionsFromRoadId` and `GetConnectingRoadIdFromIncomingRoadId` do not check the incoming road for null as the other two functions do (`roads_null_fails`).
* C38: `Wait` tests the flag once, not in a loop, so that a spurious wake-up ends it (`wait_spurious_fails`); `Release` wakes one thread only, a second one stays blocked although the semaphore is released (`two_waiters_stuck_fails`).
* C68: before the first height entry the line of the first two entries is extended, heights may become negative (`height_before_first_fails`); a lane with heights but without width dereferences a null pointer (`height_without_width`), a lane of width 0 divides by 0 (`height_zero_width`).
* C69: outside all eligible lanes the lane with the nearest centre is found, not the one with the nearest edge (`nearest_edge_fails_witness`).
* C70: without a centre lane the search goes on to the other side of the road (`roadWidth_without_centre_fails_witness`).
* C71: `GetConnectedLaneIdAtS` follows the link of the section of the target too, also if start and target are in the same section (`connected_within_fails`); it is right for the ends of the road. Callers pass places within the road (ControllerFollowRoute.cpp:114, RoadManager.cpp:11738, 11750).
* C72: if the steps do not add up to the transition time the last intensity falls short by up to one step: a lamp switched off stays lit (`final_intensity_fails`); a transition time below 1e-6 changes nothing (`tiny_transition_fails`); a colour with all channels >= 0.6 that is not grey leaves the brightest colour at -1, the lamp stays dark (`switched_on_bright_fails`); with a transition time the first flash is dark (`first_flash`).
* C73: the condition compares texts, so "on;off;off;" differs from "on;off;off" although both set the same lamps (`condition_same_words_fails`).
* `AssignControllerAction::Start` (OSCPrivateAction.cpp:754) passes `{lat, long, light, anim}` although index 0 is the longitudinal domain: `activateLateral` activates the longitudinal domain and vice versa (`assign_activation_swapped_fails`).
* `ActivateControllerAction::Start` (OSCPrivateAction.cpp:823-846) from OpenSCENARIO 1.3 on deactivates the controller that is about to be activated instead of the conflicting one: two controllers active on one domain (`activate_new_exclusive_fails`); before 1.3 it stops after the first conflict (`activate_old_exclusive_fails`) and a controller active on both driving domains loses the one not mentioned (`activate_old_loses_unspecified_fails`).
* `IsControllerActiveOnDomains` etc. (Entities.cpp:161) compare the controller's type with itself, so the type argument is ignored (`active_query_type_fails`); `LatDistanceAction::Step` (OSCPrivateAction.cpp:2104) uses the number of the lateral domain as mask and so tests the longitudinal domain (`lat_distance_domain_fails`).
* `PolyLineShape` in FOLLOW mode drops stand-still phases: the speed of arrival is kept at the vertex where the phase starts, so the vehicle overshoots during the phase and jumps back (`follow_standstill_fails`). In POSITION mode the last vertex never gets a speed, and with a single vertex `vertex_[-1]` is written (`position_last_speed_fails`; RoadManager.cpp:13285).
* `VerticesUnique` (RoadManager.cpp:12990) compares the signed heading difference with the limit, so any growing heading counts as equal (`vertsUnique_signed_fails`).
* `ClothoidShape::Evaluate` (RoadManager.cpp:14158) subtracts the start time twice: a clothoid that does not start at time 0 starts and ends in the wrong place (`clothoid_start_time_fails`). Copies of clothoid splines lose the end time (`spline_copy_fails`). Sampling of splines misplaces the last vertex unless the length is a whole number, and vertices after segments shorter than a metre (`spline_sampling_fails`).
* `NurbsShape::EvaluateInternal` drops contributions of weight up to 1e-6 without renormalising, so that points shrink towards the origin: a metre at coordinate 1e6, always at the end of a curve of order 2 (`nurbs_end_fails`); knot vectors whose first knot is not repeated make it read `ctrlPoint_[IDX_UNDEFINED]` (`nurbs_unclamped_fails`).
* `PolyLineBase::Time2S` reads past the end of the vertices for a start index at the last vertex and a time within the tolerance before the end (`time2s_reads_past_end_fails`).
* `LongSpeedProfileAction::Start` merges entries of equal slope and lets the merged last vertex keep its slope: the speed runs past the last target for 10 s and the action never ends, since the index of segments is compared with the number of entries (`position_same_slope_fails`; OSCPrivateAction.cpp:1437, 1691). In follow mode an equal slope in the second entry makes all later targets be missed (`follow_same_slope_fails`).
* Entries without time replace the vertex of the current speed, so that the speed jumps (`omitted_times_jump_fails`; OSCPrivateAction.cpp:1420); with three of them the vertex before the first is read (`omitted_times_underrun_fails`; line 1429).
* A profile whose last entry keeps the speed ends when that entry starts (`constant_end_early_fails`); a step over the whole profile from the final speed skips it and the action never ends (`skipped_never_ends`).
* Follow mode: the speed limit is checked at joints only (`follow_speed_limit_fails`); when no solution is found for a single target the messages announce a fallback which is not done, and segments are built from zeros: the speed jumps to -5000 m/s (`single_no_solution_fails`; OSCPrivateAction.cpp:1503-1543); a fallback half-way makes the speed jump (`follow_fallback_jump_fails`); an initial acceleration is dropped at once if the first entry keeps the speed (`follow_initial_acc_fails`).
* The copy constructor of `LongSpeedProfileAction` does not copy the dynamic constraints (`copy_forgets_limits_fails`; OSCPrivateAction.hpp:379).
* `MoveAlongS` follows at most 8 links; the rest of the distance is dropped and the code is that of a move made in full (`move_lost_fails`; RoadManager.cpp:10394).
* A lateral shift passed to `MoveAlongS` is made again at every road end (`move_shift_repeated_fails`), with the sign of the contact point (`move_shift_side_fails`; RoadManager.cpp:10445-10471).
* A step over the end of a road from one of its earlier sections looks up the lane by the index it has in the old section, so that the lane changes if the last section has another number of lanes on the left (`move_lane_index_fails`; RoadManager.cpp:10417 sets the section without the lane index).
* A lane linked to a lane that does not exist on the next road makes the position go on along the centre line, reported as a normal change of road (`move_missing_lane_fails`).
* `RoadPath::Calculate` ends the search when the target road is first reached, not when the target is: with a target road that can be entered at both ends the way may be longer than the shortest by up to the length of that road (`shortest_fails`; RoadManager.cpp:6257-6270).
* Two connections between the same incoming and connecting road count the part on the target road twice (`double_connection_fails`; RoadManager.cpp:6284-6318).
* The search is limited to 100 rounds; farther targets are reported as not reachable (`rounds_fail`; RoadManager.cpp:6231). A link that was visited on one lane is not visited again on another, so that ways are missed (`lanes_merge_fails`). With both directions the lane at the end of the road is derived from the lane at its start instead of the lane of the vehicle (`start_lane_fails`; RoadManager.cpp:6172-6177).
* For a vehicle that faces against its lane's driving direction the sign of distances differs between its own road and other roads (`sign_fails`; RoadManager.cpp:6364).
* `Position::Delta` takes the end at which the last road is left for the end at which the target road is entered: `dDirection` is inverted for all positions on roads that run one after the other (`direction_right_iff`, `direction_fails`; RoadManager.cpp:11730-11754), and the lane is followed along the target road from the wrong end (`lanes_fail`).
* In a lane change that is not linear, an entity that is too slow for the requested lateral motion jumps between the shape and a linear interpolation, so that it moves sideways farther than it travels (`change_jump_fails`; OSCPrivateAction.cpp:961-971).
* A lane change with a rate of 0 ends immediately without a change (`change_zero_rate_fails`).
* In lane changes over a distance the heading is wrong when driving backwards (`change_reverse_heading_fails`; OSCPrivateAction.cpp:981, compare 961).
* On geometries of type poly3 positions stop at the last multiple of 10 m: on a straight one of 15 m everything from 10 m on is at 10 m (`poly3_fails`; RoadManager.cpp:1075, the loop does not include the end).
* The curvature reported on poly3 geometries is the second derivative, not the curvature (`poly3_curvature_fails`; RoadManager.cpp:1107-1110).
* The curvature reported on paramPoly3 geometries is that at the parameter equal to the distance, not at the parameter of the position (`param_curvature_fails`; RoadManager.cpp:1142-1147, without `S2P`).
* Arcs with a curvature of less than 1e-6 are straight, but report their curvature (`flat_arc_fails`).
* Critically damped springs diverge or swing on for steps of (2√2-2)/√tension and more (`spring_fails`).
* In longitudinal distance actions the rates limit only an acceleration that grows in size: a hard braking is released at once (`jerk_fails`; OSCPrivateAction.cpp:1934-1941).
* A lateral distance action that is started a second time adds the widths again in the road coordinate system, and changes the side in the entity coordinate system (`lat_restart_fails`; OSCPrivateAction.cpp:1990-2014, the member `distance_` is changed).
* A lateral distance action for an entity that stands still or drives backwards sets its speed to NaN (`lat_standing_fails`, `lat_reverse_fails`; OSCPrivateAction.cpp:2305, 2317, 2337).
* A synchronize action that is executed a second time ends in its first step, since distances (and mode) of the first execution are kept (`sync_restart_fails`; OSCPrivateAction.cpp:2634-2661, 2767).
* With less than 1 ms or 1 mm left to the steady state the entity is stopped for a step, where zero acceleration was intended (`sync_glitch_fails`; OSCPrivateAction.cpp:2543-2547).
* Without a final speed an entity with more than twice the average speed needed passes its destination before the master arrives (`sync_early_fails`).
* Braking that ends exactly at zero speed goes on backwards while the brake is held (`Vehicle.brake_exact_fails`; vehicle.cpp:101, 155: `speed_ < 0`).
* Drag of a coasting simple vehicle is per step, not per time (`coast_rate_fails`; vehicle.cpp:111, 165).
* `DrivingControlTarget` overshoots for steps longer than 1/max_acc and swings for ever from 2/max_acc (`target_swings_fails`; vehicle.cpp:72); the return of the wheels likewise diverges for steps above 2/return factor (`wheels_swing_fails`; vehicle.cpp:128, 180).
* `GetThrottleDisabled` returns the flag of the steering (`throttle_flag_fails`; vehicle.hpp:130-133).
* ACC: of several entities really close in front the last listed is followed, not the nearest (`lead_nearest_fails`; ControllerACC.cpp:145-158).
* ACC: the stop within a metre and a lowered set speed with a lead ignore the deceleration limit (`follow_limits_fails`; ControllerACC.cpp:165-168, 186).
* ACC: the set speed is passed for time steps between 1/(0.7 maxAcc) and twice that (`cruise_pass_fails`; ControllerACC.cpp:200).
* ACC: a speed requested by an action is not noticed when it equals the current speed (`same_speed_fails`; ControllerACC.cpp:99).
* ACC: in virtual mode the acceleration is zero with a lead within a metre (`virtual_close_fails`; ControllerACC.cpp:162-168).
* Conditions: the distance to a position along a trajectory is the own position on the trajectory, whatever the position is (`trajectory_point_fails`; RoadManager.cpp:11992).
* Conditions: with coordinateSystem world and a longitudinal or lateral distance nothing is measured, the distance is 0 (`world_fails`; RoadManager.cpp:11837-11908).
* Conditions: the time to collision of a standing entity with a moving one has the wrong sign when the target comes from ahead or leaves behind (`ttc_standing_fails`; Entities.cpp:1387).
* Conditions: there is no time to collision with a target that moves slower than 1 mm/s but is not standing (`ttc_creeping_fails`; Entities.cpp:1370-1388).
* Conditions: ReachPosition compares angles without whole turns, headings on both sides of 0 never match (`orient_wrap_fails`; OSCCondition.cpp:902-903).
* Conditions: the time of an entity that stands still, is off the road or at its end from time 0 on counts from the second step, and at negative times not at all, since 0 means not in the state (`from_start_fails`, `negative_time_fails`; Entities.hpp:327-348).
* Conditions: RelativeClearance counts lanes across the reference line with lane 0 when looking for a lane, and without it when looking for entities (`clear_opposite_fails`; OSCCondition.cpp:1687, RoadManager.cpp:11765-11772).
* Ground truth: the angular acceleration subtracts heading rates like angles, so a change of more than pi rad/s has the wrong sign (`angular_acceleration_fails`; ScenarioEngine.cpp:697).
* Trailers: trailers are placed before the heading of a vehicle with offset reference point is replaced, so coupler and hitch come apart when the heading changes (`offset_decouples_fails`; ScenarioEngine.cpp:271-334).
* Trail: after a step of more than twice the sampling time the trail of a moving entity contains a sample with the old position one sampling time before now, as if it had stood still and jumped (`trail_true_fails`; ScenarioEngine.cpp:756-762).
* FollowTrajectory: an entity that goes backwards past the start stops there, the remaining distance is lost, since the distance along the trajectory goes below 0 (`backward_rest_fails`; OSCPrivateAction.cpp:536, RoadManager.cpp:12662).
* FollowTrajectory: on a closed trajectory the entity stands at the end for good and the action does not end (`closed_stuck_fails`; OSCPrivateAction.cpp:525, RoadManager.cpp:13313-13318).
* FollowTrajectory: with absolute time and a negative offset the speed is not updated once the time without offset is past the end (`absolute_stale_fails`; OSCPrivateAction.cpp:615).
* FollowTrajectory: at the end of a trajectory with a scale other than 1 the remaining time is not scaled back, so the entity jumps ahead or falls short (`relative_rest_fails`; OSCPrivateAction.cpp:541-542).
* FollowTrajectory: with a time reference and a controller that overrides the longitudinal domain the action never ends, the entity stands at the end (`override_endless_fails`; OSCPrivateAction.cpp:528, 582-587).
* FollowTrajectory: the copy for a ghost takes the time offset for the initial distance offset, and its trajectory is never closed (`copy_fails`; OSCPrivateAction.hpp:1192, RoadManager.cpp:15394).
* FollowTrajectory: the scale multiplies the simulation time, so a scale above 1 speeds the trajectory up; the OpenSCENARIO standard describes it as stretching the time values of the trajectory. `relative_run` and `absolute_step` state what the code does.
* OSI over UDP: a receiver in Python that lost the end of a message of two packets drops the next small message and returns the one after it with the old packet in front; no packet carries the number of its message (`recv_mixes_fails`, `recv_stale`; udp_osi_common.py:87-100).
* OSI over UDP: the C++ receiver does not look at the numbers of packets, with one lost it returns a message that was not sent (`recvC_lossy_fails`); a message of more than 1024000 bytes is written beyond its buffer (`recvC_large_fails`; osi_receiver.cpp:144-153).
* OSI: SE_EnableOSIFile in a running scenario does not set the frequency, so that one message is written and no more (`enable_late_fails`), and a second call after a step divides by zero (`enable_twice_fails`; esminiLib.cpp:2254-2262, OSIReporter.cpp:331, OSIReporter.hpp:291).
* OSI: with static reporting API and a file open, SE_GetOSIGroundTruth gives what is logged, without static data (`get_api_fails`; OSIReporter.cpp:377-384, 3395); in the frame in which the file is switched on it may be empty (`get_empty_fails`).
* OSI: a file switched on after the first report never gets the static data by default (`late_file_fails`; OSIReporter.cpp:336, 368); stationary objects that left the scenario stay in the static data (`removed_fails`; OSIReporter.cpp:534).
* Expressions: a unary operator followed by exactly one blank, as in `- 3`, is refused, with two blanks it is accepted (`expression_value_fails`; expr.h: unary flag is kept when the blank is read as a token).
* Expressions: numbers with an exponent are strings, `1e5 + 1` is `1e51` (`exponent_fails`).
* Expressions: the names of operators are replaced everywhere and only if a blank follows: `floor (2)` gives the text `flo|| (2)`, `1 == 1 and true` and `not false` give a text (`names_value_fails`; Parameters.cpp:447-452).
* Expressions: a boolean given by an expression is never true, since `1.000000` is neither `true` nor `1` (`boolean_fails`; Parameters.cpp:464).
* Expressions: `()` and the empty text are 0, a missing argument is read beyond the arguments, `max((),2)` takes an operand from an empty vector (`malformed_fails`).
* Expressions: results are rounded to six decimals (`printed_fails`; Parameters.cpp:464).
* Variables: AddValue and MultiplyByValue on a variable that is not declared never start, so the event does not end (`undeclared_fails`; OSCGlobalAction.cpp:168-172, 205-209).
* Variables: a parameter reference as value of AddValue or MultiplyByValue is looked up among the variables (`parameter_value_fails`; ScenarioReader.cpp:2397, 2407).
* Variables: a whole variable loses the fraction of a product, 100 times 0.29 is 28 (`integer_fails`; OSCGlobalAction.cpp:215); compared with 2.5 it is compared with 2 (`condition_value_fails`).
* Files: the directory of a scenario in the root directory is taken to be the working directory, files beside it are not found (`dirName_fails`, `beside_scenario_fails`; CommonMini.cpp:1209).
* Files: with a parameter distribution the number goes into a directory name if that has a dot and the file has no extension: `../out/sim` becomes `._1_of_3./out/sim` (`run_name_fails`; CommonMini.cpp:1265, 1404).
* UDP driver: after a complete state (XYZHPR) the flag for extrapolation is read from the place of the roll angle: roll 0 never extrapolates, most other roll angles always do (`complete_reckon_fails`; ControllerUDPDriver.cpp:309).
* UDP driver: a message that is refused for its version or unknown entity is kept as last message and acts from the next step on (`refused_fails`; ControllerUDPDriver.cpp:207).
* UDP driver: a message for another entity sets that one, then the extrapolation moves the own entity with its speed and heading (`other_fails`; ControllerUDPDriver.cpp:340).
* UDP driver: the vehicle model does not take the speed of state messages, the first driver input restarts from the speed at activation (`driver_speed_fails`; vehicle.hpp:65-71).
* Traffic command: a lane change to a given lane reports the lane id as number of lanes, a relative one counts from the own lane to the lane with the relative number as id; right only next to the reference line (`lane_absolute_iff`, `lane_relative_iff`, `lane_fails`; OSITrafficCommand.cpp:80-87).
* Traffic command: two entities that start actions in the same step share one participant, the last one (`participant_fails`; OSITrafficCommand.cpp:35, 97).
* Traffic command: a speed action over a distance reports its duration as distance (`speed_extent_fails`; OSITrafficCommand.cpp:105 after OSCPrivateAction.cpp:1232); a relative speed is added to the own speed whatever the reference, a factor too (`speed_target_fails`; OSITrafficCommand.cpp:148).
* Injected actions: an action injected before the frame that would start the earlier one does not stop it, since `End` is refused from the initial state; both run and the earlier one may have the last word (`replaced_fails`; PlayerServer.cpp:65, StoryboardElement.cpp:263-306).
* Injected actions: after removing an ended action the loop skips two, so others that ended in the same frame stay, are reported as ongoing and stepped again (`ongoing_fails`; PlayerServer.cpp:96-97); a stopped action is stepped once more by the engine (`stopped_stepped_fails`; ScenarioEngine.cpp:186-189). An ended action is gone after as many frames as its place in the list (`finished_gone_partial`).
* Object callbacks: k registrations on an object make k*k calls, each function with the user data of each registration (`calls_count`, `calls_fails`; esminiLib.cpp:2434-2454); registrations of earlier scenarios are kept against the documentation (`restart_fails`; esminiLib.cpp:62-89, esminiLib.hpp:1476).
* Permitted lane changes: a road mark without the attribute `laneChange` forbids every change, whereas OpenDRIVE gives both as default and the documentation mentions broken lines (`attribute_fails`; RoadManager.cpp:4380); left and right are those of the road, not of the object (`heading_fails`; esminiLib.cpp:1610-1611).
* SE_SetSnapLaneTypes and SE_SetLockOnLane compare the id with the number of objects and refuse existing objects after a deletion (`setById_fails`; esminiLib.cpp:1380, 1401). SE_DeleteObject iterates over the vector it erases from: with two controllers the second is deleted and used again (`delete_two_fails`; esminiLib.cpp:1174-1179).
* Natural driver: a standing driver beside its lane injects a lane change to lane 0 (`standstill_fails`; ControllerNaturalDriver.cpp:149-180).
* Natural driver: the lane to the left is found only if the numbers of lanes on the two sides do not mask it; on a one-way road the outermost lane is never left (`left_iff`, `left_fails`; ControllerNaturalDriver.cpp:562, 568).
* Natural driver: a desired speed above that of the vehicle is reached within a step once the desired speed is exceeded (`speed_max_fails`); a speed above the desired one is dropped at once (`rate_fails`; ControllerNaturalDriver.cpp:199-212); during a lane change it does not brake (`blind_change_fails`; 133-141).
* ALKS reference driver: the time to collision of the candidates is one variable, so a vehicle further ahead that is listed later hides the one about to be hit, and there is no reaction (`masked_fails`; ControllerECE_ALKS_RefDriver.cpp:330, 359, 369).
* ALKS reference driver: the driver brakes for a faster vehicle that has just passed (`faster_fails`; ControllerECE_ALKS_RefDriver.cpp:357-360, 378), and lets go of the brakes, back to the set speed in one step, when vehicles leave the lane (`rebrake_fails`; 174-186, 399).
* ALKS reference driver: the look-ahead distance is passed as the flag for both directions (ControllerECE_ALKS_RefDriver.cpp:124); noted, without effect on the theorems.
* R157 RSS: a vehicle ahead that is not slower never gives an alarm, however close (`rss_same_speed_fails`; ControllerALKS_R157SM.cpp:1317), though in the worst case the formula is made for the vehicles collide.
* R157 RSS: the deceleration is compared with the positive limit, so it has none and grows by the jerk in every step (`rss_dec`, `rss_dec_fails`; ControllerALKS_R157SM.cpp:1348).
* R157 RSS and FSM: during the reaction time the speed is not limited and gets negative (`rss_speed_fails`, `fsm_speed_fails`; ControllerALKS_R157SM.cpp:1345, 1533).
* Road manager library: a negative handle is an access outside the vector in most calls (`negative_fails`; esminiRMLib.cpp:468, 509, 550, 575, 593, 611, 651, 680, 707, 732, 750, 769, 789, 824, 922).
* Road manager library: after a deletion all larger handles refer to other positions (`delete_shift_fails`; esminiRMLib.cpp:193).
* RM_InitWithString keeps the positions of the former network and, when it fails, stays initialised (`init_string_fails`; esminiRMLib.cpp:131-141).
* RM_GetNumberOfRoadSignValidityRecords and RM_GetRoadSignValidityRecord use a null pointer for a sign that does not exist (`validity_fails`; esminiRMLib.cpp:1013, 1028).
* RM_GetOptionValue returns the value of the first option ever asked for, for all options (`option_value_fails`; esminiRMLib.cpp:1111).
* Road identifiers: two roads with identifier 4294967294 give one of them the number that means undefined (`ids_wrap_fails`; RoadManager.cpp:6916).
* Looking in the driving direction: a vehicle turned round to the right looks backwards (`look_fails`; esminiLib.cpp:276, esminiRMLib.cpp:42, where the absolute value is taken of the comparison). The same test gives the sign of distances along the road (RoadManager.cpp:6369).
* Sun elevation: the limits are -180 and 180 degrees, the warning and the description say 90 (`elevation_fails`; OSCEnvironment.hpp:27-28, OSCEnvironment.cpp:218).
* Time of day with animation: an action in the Init section gives a clock that is late by the first time stamp that is not zero (`time_init_fails`); a second action starts ahead by the time since the first one (`time_second_fails`; the offset is never reset, OSIReporter.cpp:3863); after midnight the seconds go on beyond 86400 (`time_midnight_fails`).
* Sloppy driver: a vehicle in a lane against the direction of the road has an angle of half a turn to the road; the controller takes it for an error and turns the vehicle out of its lane even without sloppiness (`left_lane_fails`, ControllerSloppyDriver.cpp:131-148). In override mode the angle to the road is set as heading in the world (`override_heading_fails`, line 158), which is right only on a road in the direction of the x axis. The offset aimed at is to one side only, up to 7.5 m; the comment says about half a lane width (line 123).
* Follow reference: with `k` the stiffness and `dt` the time step, the distance grows from step to step if `k·dt² + 4·√k·dt > 4` (`swings_fails`), for example with stiffness 100 and steps of 0.1 s; stiffness and time step are not checked. The maximum acceleration of the vehicle is handed over but not used (`acceleration_fails`, vehicle.cpp:189-195). Driving backwards faster than the stabilizer, `atan2` of zero and a negative number is half a turn: a vehicle without any error gets its wheels turned to the end (`reverse_fails`, ControllerFollowReference.hpp:69).
* Looming controller: at a gap below 1 m there is no braking at any speed (`no_brake_fails`, ControllerLooming.cpp:365-368). In a curve or before an intersection the loop over the entities ends at the first entity behind the tangent point or the intersection, so a farther vehicle can be followed instead of a nearer one (`nearest_fails`, lines 332-341). With a vehicle far in front the balance is the set speed plus 1 m/s (`exceeds_fails`, line 380). A vehicle that stands 2 m behind a standing one drives backwards (`reverses_fails`).
* Follow route: any entity in another lane on the same side of the road within the minimum distance prevents a lane change, also one that is not in a lane to be crossed, because the list of lanes always ends with the lane of that entity; entities on the next or previous road, and those in the lanes of oncoming traffic when such a lane is entered, are ignored (`change_fails`, ControllerFollowRoute.cpp:339-372).
* Follow route: a waypoint at the end of a lane section is missed when the number of the lane changes in the next section (`section_fails`, line 403, while line 117 follows the links of lanes). With consecutive waypoints on the last road, a recalculation off the route reads the list of scenario waypoints out of range (`out_of_range_fails`, line 213; the list of all waypoints keeps the waypoint removed in RoadManager.cpp:14648-14667). On a second visit of a road the target of the first visit is taken (`loop_fails`).
* Follow route: because of `GetConnectedLaneIdAtS` (C71) a vehicle in a wrong lane takes it for the lane of the waypoint when its lane gets that number only in the next section; it never changes the lane and misses the waypoint (`wrong_lane_fails`, ControllerFollowRoute.cpp:113-117).
* Swarm: the upper end of the drawn number is one less than the number of missing vehicles, so that the number asked for is never reached and a swarm of one vehicle stays empty (`single_fails`, `population_below`, OSCGlobalAction.cpp:567).
* Swarm: if a swarm vehicle is deleted by a DeleteEntityAction or through the library, the next update uses a null pointer (`deleted_elsewhere_fails`, OSCGlobalAction.cpp:798-800).
* Swarm: the minimum distance of 20 m is measured from the place on the ellipse, not from the lane chosen (`distance_fails`, OSCGlobalAction.cpp:766); entities outside of the swarm are not considered at all (`overlap_fails`); junctions are avoided only if there are at least as many places as vehicles to add (`junction_fails`, lines 590 and 604-640).
* Swarm: `brent_zeros` exchanges the values but not the ends of the interval if the value at the start is the smaller one, so that it can drop the half with the zero; the place returned may be off the ellipse by half the length of the piece (`zero_fails`, OSCSwarmTrafficGeometry.cpp:251-252).
* Vehicle pool: a category with weight zero is chosen if it is the first one in the pool and the random number is below 1e-6, always if it is the only one (`single_trailer_fails`, VehiclePool.cpp:198).
* Relative lane positions: the lane number of the entity is used on the target road even if the lane continues there under another number; between roads joined end to end (or start to start) the position lands in a lane of the oncoming traffic (`lane_number_fails`, RoadManager.cpp:14452, 14457, 14463). With left-hand traffic and an entity in its lane left of the road axis, `dsLane` positions count `dLane` and offset to the right (`left_hand_fails`, `left_hand_all_fails`), contrary to release_notes.md:1822-1824; likewise for entities that drive against their lane (`wrong_way_fails`).
* Relative road positions: `dt` counts from the lane of the entity as it runs at the target, not from the lateral position of the entity, so where the road widens the position drifts (`rel_road_fails`, RoadManager.cpp:14476-14478).
* Orientation on slopes: with absolute heading and relative pitch and roll (the default for world coordinates) the heading is applied in the plane of the road, so the heading of the entity is not the one given, and each evaluation moves it further (`heading_fails`, `heading_drift_fails`); a pitch set absolute with a relative roll on a banked road is not kept (`pitch_fails`, RoadManager.cpp:11080-11098). Relative object and relative lane positions evaluate their orientation with these modes at the end, so on slopes they lose absolute pitch and roll and turn relative headings (`rel_object_slope_fails`, `rel_lane_slope_fails`, RoadManager.cpp:14573).
* Position mode 0 does not use the current modes, contrary to positioning.adoc:40-48: the given angles are ignored (`zero_mode_fails`). `SetMode` for all operations merges into the modes of initialisation, which are zero, without a default: components not named, or named with their default, lose their modes in SET and UPDATE (`all_fails`), after which a position no longer follows the orientation of the road (`all_z_fails`, RoadManager.cpp:11391-11397).
* Route positions: t of road coordinates is read as integer (`t_fails`, ScenarioReader.cpp:2180); an orientation after the place is ignored and a RouteRef after it leads to a null pointer, though the schema allows any order (`order_fails`); the type of the orientation is ignored (`absolute_fails`); in lanes against the road pitch and roll change sign (`route_pitch_fails`); without orientation the entity is turned against the road exactly in lanes with positive number, wrong with left-hand traffic (`left_hand_route_fails`) and for positions aligned to the route (`aligned_fails`, RoadManager.cpp:12419-12441).
* World positions: the z offset of the header is added to world positions, also with `ignore_odr_offset`, but reaches the roads only through their elevation entries (`world_height_fails`, ScenarioReader.cpp:1887, RoadManager.cpp:4028).
* Lateral distance action: in the entity coordinate system it never ends, also if not continuous (`entity_end_fails`, OSCPrivateAction.cpp:2106-2238); an entity on the line is turned parallel at once whatever the limit (`entity_turn_fails`); without limits an entity driving backwards is moved forwards (`entity_reverse_fails`); in the road coordinate system without limits an entity that stands at the requested distance gets heading 0 (`rigid_standing_fails`, OSCPrivateAction.cpp:2268, 2279).
* The displacement `any` of lateral distance actions ends the program (`any_fails`, ScenarioReader.cpp:3132-3148), and `continuous="1"` is false, though `freespace="1"` is true (`continuous_fails`, ScenarioReader.cpp:3113, 3121).
* A lateral distance action is given the index of the lateral domain as its mask, which is the longitudinal mask: starting one ends the running speed action and leaves a lane change running (`Ex.lat_distance_fails`, OSCPrivateAction.hpp:556, 573; CommonMini.hpp:123).
* If the first private action of an event is dropped by the reader, its entities do not know the event and its other actions are never ended by competing ones (`readEvent_known_fails`, `Ex.unknown_event_fails`, ScenarioReader.cpp:5304-5327). Init actions among themselves and injected actions are not checked (`Ex.init_actions_fails`, `Ex.injected_fails`, ScenarioEngine.cpp:178-191).
* Override actions: `active="1"` releases the control (`active_fails`); a released control clears the domain of others overridden by the same action, depending on their order (`domains_fails`, OSCPrivateAction.cpp:3593-3627); the copy made for a ghost has no domains (`copy_fails`, OSCPrivateAction.hpp:1690-1699).
* `SE_LogMessage` uses the text as a format: a brace throws an exception out of the library (`message_fails`, esminiLib.cpp:1925-1928, logger.hpp:157), doubled braces are halved (`message_braces_fails`).
* `--disable_stdout`: the line with the start time and the version are printed nevertheless if no message came before (`time_line_fails`, playerbase.cpp:1722, logger.cpp:318-325 uses the switch of the last message). With console and file disabled callbacks get nothing (`callback_fails`, logger.hpp:155). The buffer does not shrink when its capacity is reduced (`buffer_fails`, logger.cpp:344). `LogVersion` writes to the file only if the file is disabled (`version_fails`, logger.cpp:305).
* A path set with `SE_SetLogFilePath` during the run is not used, though the user guide says so (`setPath_fails`); an existing directory with a dot in its name is taken for a file (`path_dotted_fails`, logger.cpp:49).
* A catalog file named in `CatalogLocations` is not used if a directory registered before, or the current directory, holds a file of that name, nor is the second of two files of one name (`named_file_fails`, ScenarioReader.cpp:244-253, 291, 310).
* An element whose name is a parameter keeps the name from the first use of the catalog (`parameter_name_fails`, ScenarioReader.cpp:337). A directory given as a single name with a slash behind it is not looked for among the delivered catalogs (`last_name_fails`, CommonMini.cpp:1232-1243).
* An `ObjectController` whose reference yields no controller assigns the one before it a second time, as the variable is not reset (`controllers_fails`, ScenarioReader.cpp:1594, 1681-1714).
* `SE_GetSpeedUnit`: a type element without a speed makes the unit m/s (`unit_fails`, RoadManager.cpp:3856, 3882), and a speed without unit makes it undefined instead of m/s (`unit_missing_fails`, RoadManager.cpp:3876-3880), against the description in esminiLib.hpp:1317-1321.
* Botts' dots: a space of 0 is recognised by the position of the next dot being 0 instead of by the space (RoadManager.cpp:8291), so the dots of any line with space 0 that does not start at 0 are added without end; every explicit line has space 0 (RoadManager.cpp:4556, `dots_end_fails`). The first dot is set without regard to the end of the mark (`dots_within_fails`).
* Dashes: the search ends within 2 micrometres of the end of a dash but the point is marked as an end only within 1 (RoadManager.cpp:8440 against 7710), so a line whose dashes are, say, 1.0000015 m long is drawn through (`dash_closed_fails`).
* `FindClosestPoint` started at the last segment never looks back (RoadManager.cpp:12878-12887: the loop is left before the direction is changed, `closest_local_fails`), and started at the last vertex finds nothing (the check in RoadManager.cpp:12795 is off by one, `closest_last_fails`).
* The animated time of day (OSIReporter.cpp:3862-3874) does not start again at midnight (`clock_midnight_fails`), starts to run with the first report at a positive second rather than when the environment is set (`clock_start_fails`), and a second environment action gets the time since the first one added (`clock_again_fails`).
* Interactive controller: with the left key held, pressing and releasing the right key ends the steering (ControllerInteractive.cpp:137-160, `keys_fails`); where the speed limit falls the speed falls at once, not by the maximal deceleration (line 68, `deceleration_fails`); the alignment to the road on activation is undone in the first step, since the heading is copied before it (lines 121, 134, `align_fails`).
* Routes at junctions (RoadManager.cpp:15213-15250): a route which passes a junction twice from the same road is left at the second pass, since always the first waypoint in the junction counts (`second_pass_fails`); a connecting road back to the incoming road is never recognised as the exit of the route (`turn_back_fails`).
* Free space distance along the road (Entities.cpp:1025-1038): an overlap is only noticed if a corner of the measuring object is beside the target, so a truck beside a shorter car is reported to be some metres from it, while the car is 0 m from the truck (`Road.contains_fails`).
* Free space distance along the road to a point (Entities.cpp:881-891): only the signs of the smallest and the largest difference are compared; beside an object standing across the road the distance can be other than 0 (`Road.point_fails`), also exactly beside the middle of an object (`Road.middle_fails`). The call at line 830 passes `true` as the position mode, not as `connectedOnly`.
* Visibility action (OSCPrivateAction.cpp:3104-3115): only the direct tow vehicle and the direct trailer follow the object, so hiding a truck with two trailers leaves the second one visible (`visibility_train_fails`).
* Teleport (RoadManager.cpp:10013-10017): the comment says that the s value of the teleport action is used, but s of the object is written to the target of the action; the object goes on from where it was on the trajectory (`teleport_trajectory_fails`).
* Segment test (CommonMini.cpp:747-767): a position exactly on the normal at a vertex is on neither of the segments meeting there (`segment_gap_fails`), and so gets the penalty of 3 m for positions beyond the ends of a road (RoadManager.cpp:9233-9237).
* Offroad follower (ControllerOffroadFollower.cpp:59-62): the property speedFactor is read, but not used anywhere (seen while reading, no theorem).
* C45: words before an opening quotation mark are dropped.
* Smaller observations, stated in theorems: `maximumExecutionCount` 0 still executes once; stopping an element with
  children is announced as an end; exactly at the tolerance none of the rules `<`, `==`, `>` holds; dates before 1900
  are rejected.
