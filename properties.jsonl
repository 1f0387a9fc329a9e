{"id": "C01", "title": "Storyboard elements only make legal life-cycle transitions", "statement": "Every state change an element of the storyboard announces (through the state change callback or the recorded change list) is one of init->standby, init->running, standby->running, standby->complete, running->standby, running->complete. In particular an element that announced complete never announces anything else unless an enclosing event or maneuver group is re-executed, init->standby only happens to elements with a start trigger and running->standby only to events and maneuver groups.", "quantifier": "every storyboard tree (any shape and size, any priorities, execution counts and triggers), every sequence of trigger outcomes and every schedule in which running actions finish, including actions that finish inside their own start", "why_tests_cant": "the nested start/end/stop/propagate/reset calls interleave in a way that depends on the tree and on which actions finish when; a test sees a handful of trees and schedules", "anchors": ["EnvironmentSimulator/Modules/ScenarioEngine/SourceFiles/StoryboardElement.cpp: StoryBoardElement::Start, Stop, End, Reset, SetState, PropagateStateFromChildren, EvalTriggers", "EnvironmentSimulator/Modules/ScenarioEngine/SourceFiles/Storyboard.cpp: Event::Start, StoryBoard::Start, StoryBoard::Step"]}
{"id": "C02", "title": "Maximum execution count is never exceeded", "statement": "An event or maneuver group with maximumExecutionCount n >= 1 enters running at most n times since it was last put back to init by the re-execution of an enclosing group, whatever triggers fire.", "quantifier": "every storyboard, every trigger history, every schedule of action completions", "why_tests_cant": "the bound must hold over unbounded histories with nested re-executions", "anchors": ["EnvironmentSimulator/Modules/ScenarioEngine/SourceFiles/StoryboardElement.cpp: StoryBoardElement::Start, StoryBoardElement::End", "EnvironmentSimulator/Modules/ScenarioEngine/SourceFiles/StoryboardElement.hpp: num_executions_, max_num_executions_"]}
{"id": "C03", "title": "Nothing runs below an element that is not running", "statement": "After every completed storyboard operation, whenever an element is running its parent is running; so an action can only execute while its event, maneuver, group, act, story and the storyboard all run.", "quantifier": "every reachable storyboard state over every history", "why_tests_cant": "an invariant over all reachable states, broken only by unusual nestings of end and stop", "anchors": ["EnvironmentSimulator/Modules/ScenarioEngine/SourceFiles/StoryboardElement.cpp: Start, Stop, End, PropagateStateFromChildren", "EnvironmentSimulator/Modules/ScenarioEngine/SourceFiles/Storyboard.cpp: Event::Start"]}
{"id": "C04", "title": "Stopping an element silences its whole subtree", "statement": "When an act or the storyboard is stopped while standby or running, it is complete afterwards and no element below it is running or standby, even if groups and events below have executions left.", "quantifier": "every storyboard state reachable before the stop, every remaining execution count", "why_tests_cant": "stop calls end through propagation, end may put groups back to standby in the middle of the stop; only an argument over all trees shows this always resolves to complete", "anchors": ["EnvironmentSimulator/Modules/ScenarioEngine/SourceFiles/StoryboardElement.cpp: StoryBoardElement::Stop, EvalTriggers"]}
{"id": "C05", "title": "Completion propagates upwards", "statement": "After every completed storyboard operation a running story, act, maneuver group, maneuver or event that has children has at least one child that is not complete: a parent can not be left running when all its children are done.", "quantifier": "every reachable storyboard state over every history", "why_tests_cant": "a missed propagation would hang a scenario only for some trees and completion orders", "anchors": ["EnvironmentSimulator/Modules/ScenarioEngine/SourceFiles/StoryboardElement.cpp: PropagateStateFromChildren, AllChildrenComplete, End, Stop"]}
{"id": "C06", "title": "Storyboard operations terminate", "statement": "Starting, stopping, ending, resetting and trigger evaluation of any storyboard returns: the mutual recursion between children and parents cannot loop.", "quantifier": "every storyboard tree and state", "why_tests_cant": "non-termination on some tree shape is not observable by finitely many runs", "anchors": ["EnvironmentSimulator/Modules/ScenarioEngine/SourceFiles/StoryboardElement.cpp: Start, Stop, End, Reset, PropagateStateFromChildren"]}
{"id": "C07", "title": "Event priority is honoured", "statement": "When an event with priority overwrite starts running no other event of the same maneuver is running any more; an event with priority skip never enters running while another event of its maneuver runs; an event with priority parallel leaves the other running events of the maneuver and their actions as they are, unless actions compete for the same domain of the same object. An event only ends other events when it starts itself.", "quantifier": "every maneuver, every set of running events, every priority", "why_tests_cant": "depends on the combination of running events, priorities and trigger presence", "anchors": ["EnvironmentSimulator/Modules/ScenarioEngine/SourceFiles/Storyboard.cpp: Event::Start"]}
{"id": "C08", "title": "Elements with a start trigger only run after the trigger was true", "statement": "An element with a start trigger enters running only inside a trigger evaluation in which that trigger evaluated to true.", "quantifier": "every storyboard and history", "why_tests_cant": "quantifies over all histories of trigger results", "anchors": ["EnvironmentSimulator/Modules/ScenarioEngine/SourceFiles/StoryboardElement.cpp: Start, EvalTriggers"]}
{"id": "C09", "title": "Trigger is the OR of groups, a group is the AND of its conditions", "statement": "At each evaluation a trigger is true iff some condition group has all its conditions true, an empty trigger gives its default and an empty group is false; for conditions without edge and delay the result does not depend on the order of conditions in a group.", "quantifier": "every trigger structure, every truth assignment of the underlying conditions over time", "why_tests_cant": "arbitrary nesting and histories; the short-circuit of the group evaluation makes condition state history dependent", "anchors": ["EnvironmentSimulator/Modules/ScenarioEngine/OSCTypeDefs/OSCCondition.cpp: Trigger::Evaluate, ConditionGroup::Evaluate, OSCCondition::Evaluate"]}
{"id": "C10", "title": "Edge conditions fire exactly at edges", "statement": "For a condition that is evaluated every step, edge rising yields true at step k iff the logical expression was false at step k-1 and true at step k, falling symmetrically, risingOrFalling iff it changed, none follows the expression; nothing fires at the first evaluation.", "quantifier": "every Boolean history of the logical expression and every edge kind", "why_tests_cant": "quantifies over all histories", "anchors": ["EnvironmentSimulator/Modules/ScenarioEngine/OSCTypeDefs/OSCCondition.cpp: OSCCondition::CheckEdge, OSCCondition::Evaluate"]}
{"id": "C11", "title": "Condition delay reports the past", "statement": "For a condition with delay d evaluated at increasing times, the value at time t is true iff the undelayed value was true at some moment of the window since the previous evaluation shifted by d, i.e. no true period is lost and none is reported earlier than d after it occurred.", "quantifier": "every increasing sequence of evaluation times, every Boolean history, every delay", "why_tests_cant": "quantifies over all time grids and histories", "anchors": ["EnvironmentSimulator/Modules/ScenarioEngine/OSCTypeDefs/OSCCondition.cpp: ConditionDelay::RegisterValue, GetValueAtTime, ResetCurrentIndex"]}
{"id": "C12", "title": "ANY/ALL triggering entities", "statement": "An entity condition with rule any is true iff at least one active triggering entity satisfies the expression and with rule all iff every active triggering entity satisfies it (and there is at least one).", "quantifier": "every list of triggering entities and every individual outcome, for each of the entity condition types", "why_tests_cant": "all lists of entities and outcomes; each condition type has its own loop", "anchors": ["EnvironmentSimulator/Modules/ScenarioEngine/OSCTypeDefs/OSCCondition.cpp: EvalDone, TrigByTimeHeadway::CheckCondition .. TrigByRelativeClearance::CheckCondition"]}
{"id": "C13", "title": "Comparison rules are consistent", "statement": "For every pair of values exactly one of lessThan, equalTo, greaterThan holds for integers, greaterOrEqual/lessOrEqual/notEqualTo are the negations of lessThan/greaterThan/equalTo, for floating point up to the documented tolerance band in which the non strict rules hold and the strict ones do not.", "quantifier": "all pairs of values and all rules", "why_tests_cant": "all reals / all ints; boundary values of the tolerance", "anchors": ["EnvironmentSimulator/Modules/ScenarioEngine/OSCTypeDefs/OSCCondition.cpp: EvaluateRule (double, int, string, bool)"]}
{"id": "C14", "title": "Recorded packets read back unchanged", "statement": "Every sequence of packets written to a recording is read back by the reader as exactly the same sequence of packet ids and payloads, in the same order.", "quantifier": "every sequence of packets with any ids and payload sizes", "why_tests_cant": "unbounded data", "anchors": ["EnvironmentSimulator/Modules/ScenarioEngine/SourceFiles/PacketHandler.hpp: DatWriter::Write, DatReader::ReadPacket", "EnvironmentSimulator/Modules/ScenarioEngine/SourceFiles/PacketHandler.cpp: DatReader::ReadFile, CreateGenericPacket, ReadStringPacket, ReadVectorPacket"]}
{"id": "C15", "title": "Reader never reads outside the recording", "statement": "For every byte string given as recording, decoding either succeeds with data taken from within the file or is rejected; it never reads outside a packet's payload.", "quantifier": "every byte string, including truncated and corrupt recordings", "why_tests_cant": "all byte strings / all crash points while writing", "anchors": ["EnvironmentSimulator/Modules/ScenarioEngine/SourceFiles/PacketHandler.cpp: DatReader", "EnvironmentSimulator/Modules/ScenarioEngine/SourceFiles/PacketHandler.hpp: safe_copy"]}
{"id": "C16", "title": "Recording only changes loses nothing", "statement": "Although values are only recorded when they change, for each object and each recorded quantity the value reconstructed from the recording at every recorded time equals the value the object had at that time (up to the tolerance used to detect a change).", "quantifier": "every sequence of per-step values of every object", "why_tests_cant": "unbounded histories, drift in steps smaller than the tolerance", "anchors": ["EnvironmentSimulator/Modules/ScenarioEngine/SourceFiles/PacketHandler.cpp: DatWriter::WriteX", "EnvironmentSimulator/Applications/replayer/Replay.hpp: Timeline::get_value_incremental"]}
{"id": "C17", "title": "Timeline lookup returns the value in force", "statement": "Looking up a recorded quantity at time t returns the value of the last entry with timestamp <= t (the first entry if t precedes all); forward, backward and random access agree.", "quantifier": "every non-empty timeline with increasing timestamps, every query sequence", "why_tests_cant": "all timelines, all query orders with a stateful cursor", "anchors": ["EnvironmentSimulator/Applications/replayer/Replay.hpp: Timeline::get_value_incremental, get_value_binary, get_index_binary, get_values_until_time"]}
{"id": "C18", "title": "Replay navigation stays inside the recording", "statement": "For every sequence of go-to-time, next/previous frame, start/stop time operations the current index stays within the recorded frames and the reported time equals the timestamp of that frame; repeated next frame visits each frame exactly once in order.", "quantifier": "every recording and every sequence of navigation calls", "why_tests_cant": "arbitrary operation sequences", "anchors": ["EnvironmentSimulator/Applications/replayer/Replay.cpp: Replay::GoToTime, GoToNextFrame, GoToPreviousFrame, FindIndexAtTimestamp, SetStartTime, SetStopTime"]}
{"id": "C19", "title": "Parameter distribution enumerates the Cartesian product", "statement": "Stepping a deterministic parameter distribution through all its permutations yields every combination of parameter values exactly once, the number of permutations is the product of the set sizes and the permutation index uniquely determines the combination.", "quantifier": "every list of parameter value sets", "why_tests_cant": "all numbers and sizes of sets", "anchors": ["EnvironmentSimulator/Modules/ScenarioEngine/OSCTypeDefs/OSCParameterDistribution.cpp: GetNumPermutations, GetParameterEntry, SetIndex, IncrementIndex"]}
{"id": "C20", "title": "Parameter scopes are restored exactly", "statement": "Declaring parameters in a nested scope and leaving the scope restores every parameter of the surrounding scope to the declaration it had, inner declarations shadow outer ones with the same name while the scope is open, and values assigned to an outer parameter survive.", "quantifier": "every nesting of scopes and every sequence of declarations, assignments and look-ups", "why_tests_cant": "arbitrary well-nested histories", "anchors": ["EnvironmentSimulator/Modules/ScenarioEngine/SourceFiles/Parameters.cpp: CreateRestorePoint, addParameterDeclarations, RestoreParameterDeclarations, getParameterEntryByName, setParameterValue"]}
{"id": "C21", "title": "Entity registry stays consistent", "statement": "After any sequence of add, activate, deactivate and remove, object ids are unique and never reused, no object is both active and deactivated or listed twice, look-up by id and by name find exactly the registered objects.", "quantifier": "every sequence of registry operations, including vehicles with trailers", "why_tests_cant": "all histories", "anchors": ["EnvironmentSimulator/Modules/ScenarioEngine/SourceFiles/Entities.cpp: Entities::addObject, activateObject, deactivateObject, removeObject, GetObjectById, GetObjectByName, indexExists, nameExists"]}
{"id": "C22", "title": "Router finds a cheapest path or reports none", "statement": "The route computed between two lanes is a connected sequence of road/lane nodes from start to target, no other connected sequence is cheaper under the chosen strategy, and an empty result is returned only if the target can not be reached.", "quantifier": "every road network graph with non-negative weights, every start and target", "why_tests_cant": "all graphs", "anchors": ["EnvironmentSimulator/Modules/RoadManager/LaneIndependentRouter.cpp: CalculatePath, FindGoal, GetNextNodes, CalcWeight", "EnvironmentSimulator/Modules/RoadManager/LaneIndependentRouter.hpp: Node, WeightCompare"]}
{"id": "C23", "title": "Bounding box tree finds exactly the overlapping candidates", "statement": "Intersecting two bounding box trees reports exactly the pairs of leaf boxes that overlap, each pair once.", "quantifier": "all finite sets of boxes", "why_tests_cant": "all box configurations and tree shapes", "anchors": ["EnvironmentSimulator/Modules/ScenarioEngine/OSCTypeDefs/OSCAABBTree.cpp: Tree::Build, __build, divide, intersect, BBox::collide, merge"]}
{"id": "C24", "title": "Path normalisation is sound and idempotent", "statement": "Normalising a path yields a path that denotes the same location, contains no '.' or empty components and '..' only as leading components of a relative path; normalising again changes nothing.", "quantifier": "all path strings", "why_tests_cant": "all strings", "anchors": ["EnvironmentSimulator/Modules/CommonMini/CommonMini.cpp: LexicallyNormalizePath"]}
{"id": "C25", "title": "Last given option value wins and persistent options survive", "statement": "After any sequence of setting, unsetting and parsing options, reading an option returns the value set last; after reset only persistent options remain set.", "quantifier": "all command lines and operation sequences", "why_tests_cant": "all argument vectors", "anchors": ["EnvironmentSimulator/Modules/CommonMini/CommonMini.cpp: SE_Option, SE_Options::SetOptionValue, GetOptionArg, ParseArgs, Reset"]}
{"id": "C26", "title": "Command line overrides are applied faithfully", "statement": "Post-processing of the command line keeps every argument that is not overridden, in order, and removes every occurrence of an overridden option with its arguments and nothing else.", "quantifier": "all argument vectors", "why_tests_cant": "all argument vectors including malformed ones", "anchors": ["EnvironmentSimulator/Modules/CommonMini/Config.cpp: PostProcessArgs, RemoveOptionAndArguments, AppendArgcArgv"]}
{"id": "C27", "title": "Collision lists are symmetric and exact", "statement": "After each collision detection, for every pair of active objects, a is in b's collision list iff b is in a's iff they overlap now, without duplicates.", "quantifier": "all sequences of overlap relations and object sets over time", "why_tests_cant": "unbounded histories of appearing and disappearing objects", "anchors": ["EnvironmentSimulator/Modules/ScenarioEngine/SourceFiles/ScenarioEngine.cpp: ScenarioEngine::DetectCollisions"]}
{"id": "C28", "title": "Simulation time bookkeeping", "statement": "True time never decreases and is never less than simulation time; simulation time only jumps back by the head start when a ghost restarts and re-synchronises, after which normal mode is only resumed when simulation time caught up with true time.", "quantifier": "all sequences of time steps and ghost restarts", "why_tests_cant": "all histories", "anchors": ["EnvironmentSimulator/Modules/ScenarioEngine/SourceFiles/ScenarioEngine.cpp: ScenarioEngine::step, UpdateGhostMode"]}
{"id": "C29", "title": "Distance cache returns current distances", "statement": "A distance query through the caching interface returns a distance that was measured for the same pair of objects and the same distance type; different pairs never share an entry.", "quantifier": "all query sequences, ids and distance types", "why_tests_cant": "all histories of queries", "anchors": ["EnvironmentSimulator/Modules/ScenarioEngine/SourceFiles/ScenarioEngine.cpp: ScenarioEngine::GetDistance, UpdateDistance", "EnvironmentSimulator/Modules/ScenarioEngine/SourceFiles/ScenarioEngine.hpp: GenerateKey"]}
{"id": "C30", "title": "Transition dynamics start at the start, end at the target and stay between", "statement": "For linear, sinusoidal and cubic shapes the interpolated value equals the start value at parameter 0, the target value at the end, and moves monotonically between them, with the derivative the API reports and never faster than the given rate; a step shape or an empty range gives the target at once; the parameter never leaves its range however it is stepped.", "quantifier": "all start/target values, all targets, all step sequences", "why_tests_cant": "continuum of values, all step sequences", "anchors": ["EnvironmentSimulator/Modules/ScenarioEngine/OSCTypeDefs/OSCPrivateAction.cpp: TransitionDynamics::Evaluate, Step, SetParamTargetVal"]}
{"id": "C31", "title": "Speed action respects performance limits", "statement": "While a speed action runs, the speed change per step never exceeds the vehicle's acceleration/deceleration limit times the step, and the speed never exceeds the maximum speed limit.", "quantifier": "all targets, dynamics, steps, limits", "why_tests_cant": "continuum of values", "anchors": ["EnvironmentSimulator/Modules/ScenarioEngine/OSCTypeDefs/OSCPrivateAction.cpp: LongSpeedAction::Start, LongSpeedAction::Step"]}
{"id": "C32", "title": "Relative lane arithmetic skips the reference lane", "statement": "Moving a non-zero lane id by an offset never yields lane 0, moves exactly that many lanes (left and right lanes numbered without 0), and is inverted by the lane difference function.", "quantifier": "all lane ids and offsets", "why_tests_cant": "all integers", "anchors": ["EnvironmentSimulator/Modules/RoadManager/RoadManager.cpp: GetRelativeLaneId, GetLaneIdDelta", "EnvironmentSimulator/Modules/ScenarioEngine/OSCTypeDefs/OSCPrivateAction.cpp: LatLaneChangeAction::Start"]}
{"id": "C33", "title": "Lights report emission iff some colour channel is non-zero", "statement": "A vehicle light is reported as emitting iff at least one of its colour channels is lit; conflicts between light types are symmetric.", "quantifier": "all light states and colours", "why_tests_cant": "all channel values", "anchors": ["EnvironmentSimulator/Modules/ScenarioEngine/OSCTypeDefs/OSCPrivateAction.cpp: LightStateAction::SetVehicleLightState, CheckConflictingLights"]}
{"id": "C34", "title": "Angle normalisation", "statement": "Normalising an angle to [0,2pi) or (-pi,pi] yields a value in the interval that differs from the input by a whole number of turns; the difference of two angles has the smallest magnitude.", "quantifier": "all finite angles", "why_tests_cant": "continuum", "anchors": ["EnvironmentSimulator/Modules/CommonMini/CommonMini.cpp: GetAngleInInterval2PI, GetAngleInIntervalMinusPIPlusPI, GetAngleDifference, GetAbsAngleDifference"]}
{"id": "C35", "title": "Lane boundaries are consistent", "statement": "The inner edge of each lane is the outer edge of its inner neighbour, the lane centre lies midway, for non-negative widths offsets grow outwards; lane ids in a section stay sorted from left to right in whatever order lanes are added.", "quantifier": "all lane sections, widths and insertion orders", "why_tests_cant": "all sections", "anchors": ["EnvironmentSimulator/Modules/RoadManager/RoadManager.cpp: LaneSection::GetOuterOffset, GetInnerOffset, GetCenterOffset, AddLane"]}
{"id": "C36", "title": "Road profile look-up finds the entry in force", "statement": "For lane widths, lane offsets, heights, speed limits and lane sections given at increasing s, the entry used at s is the last one starting at or before s, independent of the look-up hint.", "quantifier": "all entry lists, all s, all hints, all insertion orders", "why_tests_cant": "all lists and hints", "anchors": ["EnvironmentSimulator/Modules/RoadManager/RoadManager.cpp: Lane::GetWidthByS, AddLaneWidth, Road::GetLaneSectionIdxByS, GetLaneOffset, GetSpeedByS, GetZAndPitchByS"]}
{"id": "C37", "title": "Junction connections are enumerated completely", "statement": "For every road and lane the i-th connection look-up for i below the reported number of connections returns each lane link of the junction for that road and lane once, in order.", "quantifier": "all junctions", "why_tests_cant": "all junction structures", "anchors": ["EnvironmentSimulator/Modules/RoadManager/RoadManager.cpp: Junction::GetNumberOfRoadConnections, GetRoadConnectionByIdx"]}
{"id": "C38", "title": "Semaphore wait blocks until release", "statement": "A thread waiting on the semaphore continues only after the semaphore has been released.", "quantifier": "all thread schedules, including spurious wake-ups", "why_tests_cant": "schedules and spurious wake-ups are not controllable in a test", "anchors": ["EnvironmentSimulator/Modules/CommonMini/CommonMini.hpp: SE_Semaphore::Wait, Release, Set"]}
{"id": "C39", "title": "String splitting and byte order helpers are lossless", "statement": "Splitting a string at a separator and joining the parts with the separator gives the string back; swapping byte order twice is the identity.", "quantifier": "all strings, separators, arrays", "why_tests_cant": "all inputs", "anchors": ["EnvironmentSimulator/Modules/CommonMini/CommonMini.cpp: SplitString, SwapByteOrder"]}
{"id": "C40", "title": "Date validation accepts exactly the calendar dates", "statement": "A date and time is accepted iff it is a valid Gregorian calendar date with valid time of day.", "quantifier": "all integers for year, month, day, hour, minute, second", "why_tests_cant": "all integers", "anchors": ["EnvironmentSimulator/Modules/CommonMini/CommonMini.cpp: IsValidDateTimeFormat, GetSecondsSinceMidnight"]}
{"id": "C41", "title": "A re-executed group grants its events their full execution count", "statement": "When a maneuver group is executed again, each event below it may again run up to its maximumExecutionCount times.", "quantifier": "every storyboard, trigger history and action schedule", "why_tests_cant": "depends on histories over several executions of a group", "anchors": ["EnvironmentSimulator/Modules/ScenarioEngine/SourceFiles/StoryboardElement.cpp: StoryBoardElement::Reset, End, Start"]}
{"id": "C42", "title": "An event does not hang on an action that does not start", "statement": "If an action of a started event declines to start (e.g. adding an entity that is already present), the event still completes once its other actions are done.", "quantifier": "every event, every outcome of starting its actions, every later history", "why_tests_cant": "non-termination of an event can only be shown for all later steps", "anchors": ["EnvironmentSimulator/Modules/ScenarioEngine/SourceFiles/Storyboard.cpp: Event::Start, Event::Step", "EnvironmentSimulator/Modules/ScenarioEngine/OSCTypeDefs/OSCGlobalAction.cpp: AddEntityAction::Start, DeleteEntityAction::Start, VariableAddAction::Start", "EnvironmentSimulator/Modules/ScenarioEngine/OSCTypeDefs/OSCPrivateAction.cpp: ActivateControllerAction::Start"]}
{"id": "C43", "title": "Condition history survives the clock being set back", "statement": "A condition can be evaluated again at the same or an earlier time (zero step, ghost restart): the stored history stays in chronological order and evaluation never reads outside it.", "quantifier": "every history of evaluations at arbitrary times", "why_tests_cant": "depends on histories with repeated or decreasing time stamps and particular value changes", "anchors": ["EnvironmentSimulator/Modules/ScenarioEngine/OSCTypeDefs/OSCCondition.cpp: ConditionDelay::RegisterValue, GetValueAtTime, ResetCurrentIndex"]}
{"id": "C44", "title": "The order of conditions in a group does not matter", "statement": "Two triggers that differ only in the order in which the conditions of a group are written give the same results over time, also for edge conditions.", "quantifier": "every trigger, every order, every history of the conditions' logical expressions", "why_tests_cant": "ranges over histories and permutations", "anchors": ["EnvironmentSimulator/Modules/ScenarioEngine/OSCTypeDefs/OSCCondition.cpp: ConditionGroup::Evaluate, OSCCondition::CheckEdge"]}
{"id": "C45", "title": "Splitting a quoted configuration value loses no words", "statement": "Splitting a configuration value that contains quotation marks yields every word of it: the words outside quotation marks, and each quoted section as one word.", "quantifier": "every configuration value", "why_tests_cant": "ranges over all placements of quotation marks", "anchors": ["EnvironmentSimulator/Modules/CommonMini/CommonMini.cpp: SplitQuotedString", "EnvironmentSimulator/Modules/CommonMini/ConfigParser.cpp: ConfigParser::ParseNode"]}
{"id": "C46", "title": "Merging a corrected stretch into a recording keeps the rest", "statement": "Replacing the entries of a recorded quantity between two times by other entries leaves every entry before and after unchanged and in order, and of several entries at the same time only the last one written remains.", "quantifier": "every timeline, every replaced interval, every list of new entries", "why_tests_cant": "all timelines and interval positions, including entries at the tolerance around the limits", "anchors": ["EnvironmentSimulator/Applications/replayer/Replay.hpp: Timeline::replace_data_between_times, clean_duplicate_timestamps, get_index_binary"]}
{"id": "C47", "title": "A distribution range yields every value from its lower to its upper limit", "statement": "Loading a deterministic parameter distribution with a range produces the values lowerLimit, lowerLimit + stepWidth, ... up to and including upperLimit (within a tolerance), and always finishes.", "quantifier": "every lower limit, upper limit and step width accepted by the loader", "why_tests_cant": "ranges over all numbers; a loop that never ends cannot be observed by a test", "anchors": ["EnvironmentSimulator/Modules/ScenarioEngine/OSCTypeDefs/OSCParameterDistribution.cpp: OSCParameterDistribution::Load (DistributionRange)"]}
{"id": "C48", "title": "Parameter values set through the API are read back", "statement": "Setting a declared parameter (or variable) to an integer, number, text or truth value succeeds exactly if it exists and has that type; then reading it gives the value just set, no other parameter changes, and a refused call changes nothing.", "quantifier": "every set of declarations, including shadowed names, and every value", "why_tests_cant": "all combinations of names, prefixes, types and shadowing", "anchors": ["EnvironmentSimulator/Modules/ScenarioEngine/SourceFiles/Parameters.cpp: setParameterValue, setParameterValueByString, getParameterValueInt/Double/String/Bool, getParameterValueAsString"]}
{"id": "C49", "title": "References to parameters inside text are all replaced and resolving finishes", "statement": "Resolving the references ($name) in a text replaces each by the value of the parameter, keeps all other characters, leaves no reference behind and always finishes.", "quantifier": "every text and every set of declared parameters", "why_tests_cant": "all texts and values; a loop that never ends cannot be observed by a test", "anchors": ["EnvironmentSimulator/Modules/ScenarioEngine/SourceFiles/Parameters.cpp: ResolveParametersInString"]}
{"id": "C50", "title": "Values set in the parameter declaration callback take effect everywhere", "statement": "After the callback has set some global parameters, every global parameter has the value it would have if those values had been written in the declarations, including declarations that refer to other parameters.", "quantifier": "every list of declarations and every sequence of setter calls in the callback", "why_tests_cant": "all reference chains between declarations and all sequences of calls", "anchors": ["EnvironmentSimulator/Modules/ScenarioEngine/SourceFiles/ScenarioEngine.cpp: parseScenario, EraseCleanParams", "EnvironmentSimulator/Modules/ScenarioEngine/SourceFiles/Parameters.cpp: parseParameterDeclarations"]}
{"id": "C51", "title": "Trailer links stay mutual", "statement": "After any sequence of connecting and disconnecting trailers, a vehicle has a certain trailer exactly if that trailer names it as towing vehicle; a trailer is towed by at most one vehicle.", "quantifier": "every set of vehicles and every sequence of connect and disconnect actions", "why_tests_cant": "all sequences and link configurations", "anchors": ["EnvironmentSimulator/Modules/ScenarioEngine/SourceFiles/Entities.cpp: Vehicle::ConnectTrailer, DisconnectTrailer", "EnvironmentSimulator/Modules/ScenarioEngine/OSCTypeDefs/OSCPrivateAction.cpp: ConnectTrailerAction::Start, DisconnectTrailerAction::Start"]}
{"id": "C52", "title": "Free space distance covers all trailers", "statement": "The free space distance between two vehicles is the smallest distance between any vehicle of the one combination and any vehicle of the other, whichever member of a combination is named.", "quantifier": "all combinations of vehicles and trailers, all positions", "why_tests_cant": "all numbers of trailers and all geometric arrangements", "anchors": ["EnvironmentSimulator/Modules/ScenarioEngine/SourceFiles/Entities.cpp: Object::Distance, TowVehicle, TrailerVehicle"]}
{"id": "C53", "title": "Triangle overlap test is exact", "statement": "The overlap test of two triangles says yes exactly if the triangles, borders included, have a common point, in whatever order and winding their corners are given; swapping the triangles gives the same answer.", "quantifier": "all pairs of triangles with non-zero area", "why_tests_cant": "all relative positions of six points", "anchors": ["EnvironmentSimulator/Modules/ScenarioEngine/OSCTypeDefs/OSCTriangle2D.hpp: orientation, intersection_test_vertex, intersection_test_edges, intersection2d, overlap2d", "EnvironmentSimulator/Modules/ScenarioEngine/OSCTypeDefs/OSCAABBTree.cpp: processCandidates"]}
{"id": "C54", "title": "Swarm traffic considers the whole road", "statement": "The pieces a straight road geometry is divided into for finding the swarm entry points cover the geometry from its start to its end.", "quantifier": "all line geometries, all piece sizes", "why_tests_cant": "all lengths and start positions", "anchors": ["EnvironmentSimulator/Modules/ScenarioEngine/OSCTypeDefs/OSCGlobalAction.cpp: SwarmTrafficAction::createRoadSegments"]}
{"id": "C55", "title": "Config files are expanded in place", "statement": "Every option on the command line that names a config file is replaced by the options written in that file, files it refers to included, and everything else on the command line stays in place and in order; the options of the default and environment files and of files named through the interface come first. A missing file or files that refer to each other in a circle are reported.", "quantifier": "all command lines, all contents of config files, any nesting", "why_tests_cant": "all nestings of files", "anchors": ["EnvironmentSimulator/Modules/CommonMini/Config.cpp: ParseAndProcessConfigFiles, AppendArgcArgv", "EnvironmentSimulator/Modules/CommonMini/ConfigParser.cpp: PutValue, ParseNode, ParseYamlFile, Parse"]}
{"id": "C56", "title": "The same config file loads at every initialisation", "statement": "Initialising again in the same process with the same config file gives the same options, no matter how many times it has been done.", "quantifier": "all numbers of initialisations", "why_tests_cant": "unbounded number of initialisations", "anchors": ["EnvironmentSimulator/Modules/CommonMini/ConfigParser.cpp: DoSanityChecksOnConfigFile"]}
{"id": "C57", "title": "Collisions are reported exactly when bounding boxes overlap", "statement": "Two objects whose bounding boxes have a point in common (and whose heights differ by at most 2.5 m) are reported as colliding, and objects reported as colliding have boxes that touch up to a millionth; it does not matter which of the two is asked.", "quantifier": "all positions, headings, box dimensions and box offsets", "why_tests_cant": "continuous space of relative placements", "anchors": ["EnvironmentSimulator/Modules/ScenarioEngine/SourceFiles/Entities.cpp: Object::CollisionAndRelativeDistLatLong", "EnvironmentSimulator/Modules/ScenarioEngine/SourceFiles/Entities.hpp: Object::Collision"]}
{"id": "C58", "title": "Free distance along and across an object", "statement": "The longitudinal (lateral) free distance from one object to another is the smallest difference, along the heading of the first (across it), between a point of the second box and a point of the first, positive ahead (to the left), negative behind (to the right), and 0 if there is no gap; a point is reported to be inside an object exactly if it is in the bounding box up to a millionth.", "quantifier": "all positions, headings and boxes", "why_tests_cant": "continuous space of relative placements", "anchors": ["EnvironmentSimulator/Modules/ScenarioEngine/SourceFiles/Entities.cpp: Object::CollisionAndRelativeDistLatLong, Object::PointCollision"]}
{"id": "C59", "title": "A frame of the player returns", "statement": "Stepping the player returns also if the ghost is restarted: the phase in which the ghost runs alone ends after finitely many steps, with simulation time back at true time, and true time has moved by the requested step plus at most one step of the ghost.", "quantifier": "all step lengths, head starts and restarts", "why_tests_cant": "termination for all step lengths and restart patterns", "anchors": ["EnvironmentSimulator/Modules/PlayerBase/playerbase.cpp: ScenarioPlayer::Frame, ScenarioFrame", "EnvironmentSimulator/Modules/ScenarioEngine/SourceFiles/ScenarioEngine.cpp: UpdateGhostMode", "EnvironmentSimulator/Libraries/esminiLib/esminiLib.cpp: SE_StepDT"]}
{"id": "C60", "title": "A speed action ends at its target speed", "statement": "A speed action with an absolute target ends after finitely many steps, with the speed of the entity exactly at the target speed (limited by the maximum speed).", "quantifier": "all shapes, dimensions, values, limits, start speeds and step lengths", "why_tests_cant": "termination over all step sequences and continuum of values", "anchors": ["EnvironmentSimulator/Modules/ScenarioEngine/OSCTypeDefs/OSCPrivateAction.cpp: LongSpeedAction::Start, Step"]}
{"id": "C61", "title": "A speed change over a distance covers that distance", "statement": "While a speed action specified by a distance changes the speed, the entity drives that distance, whichever time the action is executed.", "quantifier": "all shapes, speeds and distances", "why_tests_cant": "integral of a curve over a continuum", "anchors": ["EnvironmentSimulator/Modules/ScenarioEngine/OSCTypeDefs/OSCPrivateAction.cpp: LongSpeedAction::Start"]}
{"id": "C62", "title": "A lane offset action keeps the maximum lateral acceleration and ends at the target offset", "statement": "While a lane offset action runs the offset follows the shape, stays between the offset at the start and the target, its second derivative stays within the maximum lateral acceleration (cubic and sinusoidal shape), and the action ends, at exactly the target offset, when the duration derived from the maximum acceleration is over.", "quantifier": "all shapes, offsets, lanes, maximum accelerations and step lengths", "why_tests_cant": "continuum of values, calculus", "anchors": ["EnvironmentSimulator/Modules/ScenarioEngine/OSCTypeDefs/OSCPrivateAction.cpp: LatLaneOffsetAction::Start, Step"]}
{"id": "C63", "title": "A speed relative to the own speed is reached", "statement": "A speed action with a target relative to the speed the entity has at its start ends at that speed plus the delta.", "quantifier": "all deltas, dynamics and steps", "why_tests_cant": "needs a run over time for all values", "anchors": ["EnvironmentSimulator/Modules/ScenarioEngine/OSCTypeDefs/OSCPrivateAction.cpp: LongSpeedAction::Step, TargetRelative::GetValue"]}
{"id": "C64", "title": "An object sensor reports exactly the objects in its field of view", "statement": "After each step the list of a sensor added with SE_AddObjectSensor contains exactly the visible, non-ghost objects other than the host whose distance from the sensor is between the near and far range and whose direction is less than half the opening angle off the axis of the sensor, in the order of the objects in the scenario and at most maxObj of them; position, velocity, acceleration and yaw of each are relative to the sensor.", "quantifier": "all mounting places and angles, ranges, opening angles, hosts and sets of objects", "why_tests_cant": "continuum of positions and angles; any number of objects", "anchors": ["EnvironmentSimulator/Modules/ScenarioEngine/SourceFiles/IdealSensor.cpp: ObjectSensor::Update", "EnvironmentSimulator/Libraries/esminiLib/esminiLib.cpp: SE_AddObjectSensor, SE_FetchSensorObjectList"]}
{"id": "C65", "title": "Distances from segments and lines are the smallest distances", "statement": "The distance from a point to a segment is the smallest distance to any of its points and is attained at the point returned; projection on a line gives the nearest point of the line; a point of a line is reported between two end points exactly if it is, with the fraction of the way; signed distances and lengths have the sign of the side and direction.", "quantifier": "all points, segments and vectors", "why_tests_cant": "continuum of values", "anchors": ["EnvironmentSimulator/Modules/CommonMini/CommonMini.cpp: DistanceFromPointToEdge2D, ProjectPointOnLine2D, PointInBetweenVectorEndpoints, ProjectPointOnVector2DSignedLength, PointToLineDistance2DSigned"]}
{"id": "C66", "title": "Intersections and changes of frame are exact", "statement": "The intersection of two lines and the intersections of a line and a circle are exactly their common points, and converting coordinates to the frame of an object and back gives the same coordinates.", "quantifier": "all lines, circles, frames and points", "why_tests_cant": "continuum of values", "anchors": ["EnvironmentSimulator/Modules/CommonMini/CommonMini.cpp: GetIntersectionOfTwoLineSegments, GetIntersectionsOfLineAndCircle, Global2LocalCoordinates, Local2GlobalCoordinates"]}
{"id": "C67", "title": "Orientations in space compose and decompose correctly", "statement": "The orientation composed of the orientation of the road and one relative to it describes the product of the two rotations; the relative orientation computed from road and absolute orientation, composed with the road, gives the absolute orientation; inverting a matrix gives its inverse; turning a vector and turning it back gives the vector.", "quantifier": "all headings, pitches, rolls, matrices and vectors", "why_tests_cant": "continuum of values", "anchors": ["EnvironmentSimulator/Modules/CommonMini/CommonMini.cpp: R0R12EulerAngles, InvertMatrix3, CalcRelAnglesFromRoadAndAbsAngles, RotateVec3d, InverseRotateVec3d"]}
{"id": "C68", "title": "Lane height is interpolated between the entries and the edges of the lane", "statement": "The height of a lane at s is that of its height entries: at the inner and outer edge the value on the straight line between the entry in force and the next one (the entry itself after the last), and between the edges a weighted mean of the two.", "quantifier": "all lanes, height and width entries in any order, all s and lateral offsets", "why_tests_cant": "continuum of values; all lists", "anchors": ["EnvironmentSimulator/Modules/RoadManager/RoadManager.cpp: Lane::GetHeightBySAndOffset, AddLaneHeight"]}
{"id": "C69", "title": "The lane found at a lateral position is the one containing it", "statement": "Looking up the lane at a lateral position gives the eligible lane that contains it, and, if none does, the nearest eligible one; converting lane id and offset to a lateral position and back gives the same lane id and offset, and conversely.", "quantifier": "all lane sections, lane type masks, lateral positions", "why_tests_cant": "continuum of positions; all sections", "anchors": ["EnvironmentSimulator/Modules/RoadManager/RoadManager.cpp: LaneSection::GetClosestLaneIdx, Position::Track2Lane, Position::Lane2Track"]}
{"id": "C70", "title": "Road width spans the lanes of the requested types", "statement": "The width of a road side is the distance from the reference line to the outer edge of the outermost lane of the requested types (0 if there is none) and the width of both sides is their sum.", "quantifier": "all lane sections, type masks and sides", "why_tests_cant": "all sections", "anchors": ["EnvironmentSimulator/Modules/RoadManager/RoadManager.cpp: Road::GetWidth"]}
{"id": "C71", "title": "Lanes are followed along the road through their links", "statement": "The lane connected to a lane at another place of the road is the one reached by following the predecessor or successor links through the lane sections in between.", "quantifier": "all roads, lanes and pairs of places", "why_tests_cant": "all section lists", "anchors": ["EnvironmentSimulator/Modules/RoadManager/RoadManager.cpp: Road::GetConnectedLaneIdAtS, Road::GetLaneInfoByS, LaneSection::GetConnectingLaneId"]}
{"id": "C72", "title": "Vehicle light actions reach the requested intensity and flash with the requested durations", "statement": "A light action changes the intensity linearly over the transition time and ends with the requested intensity; a lamp switched on emits light; a flashing lamp is on and off for the requested durations.", "quantifier": "all light types, modes, intensities, colours, durations and step sequences", "why_tests_cant": "continuum of values; all step sequences", "anchors": ["EnvironmentSimulator/Modules/ScenarioEngine/OSCTypeDefs/OSCPrivateAction.cpp: LightStateAction::Start, Step, SetVehicleLights", "EnvironmentSimulator/Modules/CommonMini/CommonMini.cpp: GetRgbMinMaxColor"]}
{"id": "C73", "title": "Traffic light states are validated and applied lamp by lamp", "statement": "A state text is accepted iff it consists of as many known words as the light has lamps; applying it sets each lamp to its word; the traffic signal condition holds iff the wanted state is the state the lamps are in.", "quantifier": "all state texts and numbers of lamps", "why_tests_cant": "all strings", "anchors": ["EnvironmentSimulator/Modules/RoadManager/RoadManager.cpp: TrafficLight::UpdateState, CheckValidLampModes", "EnvironmentSimulator/Modules/ScenarioEngine/OSCTypeDefs/OSCCondition.cpp: TrigByTrafficSignal::CheckCondition"]}
{"id": "C74", "title": "Controllers are assigned, unassigned and activated domain by domain", "statement": "Assigning a controller makes it the last one in the object's list, exactly once; unassigning takes it out, switches it off on every domain and unlinks it. Activating switches each domain on (where the controller can operate), off, or leaves it as it is, as requested for that domain; no controller is ever active where it cannot operate.", "quantifier": "all objects, lists of controllers, domain masks and activation requests", "why_tests_cant": "all masks and sequences of operations", "anchors": ["EnvironmentSimulator/Modules/ScenarioEngine/SourceFiles/Entities.cpp: Object::AssignController, UnassignController, UnassignControllers", "EnvironmentSimulator/Modules/ScenarioEngine/OSCTypeDefs/OSCPrivateAction.cpp: AssignControllerAction::Start, ActivateControllerAction::Start", "EnvironmentSimulator/Modules/Controllers/Controller.cpp: Activate, DeactivateDomains"]}
{"id": "C75", "title": "At most one controller is active per domain", "statement": "After an activate controller action no two controllers of the object are active on the same domain: the activated controller takes the requested domains over.", "quantifier": "all objects, controller lists, activation requests and OpenSCENARIO versions", "why_tests_cant": "all sequences of activations", "anchors": ["EnvironmentSimulator/Modules/ScenarioEngine/OSCTypeDefs/OSCPrivateAction.cpp: ActivateControllerAction::Start"]}
{"id": "C76", "title": "Scenario actions and the default motion yield to an overriding controller, and only to one on their domain", "statement": "Asking whether a controller (of a given type, or in a given mode) is active on a domain gives the true answer; a lateral or longitudinal action leaves the vehicle alone iff an overriding controller has its domain; the engine moves a vehicle along the road iff no overriding controller has the longitudinal domain (and the vehicle moves, was not moved by an action and is no trailer).", "quantifier": "all objects, controllers, domains and types", "why_tests_cant": "all controller states", "anchors": ["EnvironmentSimulator/Modules/ScenarioEngine/SourceFiles/Entities.cpp: IsControllerActiveOnDomains, IsControllerModeOnDomains, GetControllerTypeActiveOnDomain", "EnvironmentSimulator/Modules/ScenarioEngine/SourceFiles/ScenarioEngine.cpp: step, defaultController", "EnvironmentSimulator/Modules/ScenarioEngine/OSCTypeDefs/OSCPrivateAction.cpp: LatDistanceAction::Step"]}
{"id": "C77", "title": "A point on a trail or trajectory, asked for by distance, lies on the line at that distance", "statement": "For a trajectory with rising distances, any distance between its ends gives a point on the segment between two neighbouring vertices, off by at most the tolerance, whatever vertex the search starts from; distances past the end give the last vertex and distances before the start the first one; a look-ahead past the end is reported as such.", "quantifier": "all vertex lists with rising distances, distances and start indices", "why_tests_cant": "all vertex lists and search starts", "anchors": ["EnvironmentSimulator/Modules/RoadManager/RoadManager.cpp: PolyLineBase::Evaluate, EvaluateSegmentByLocalS, AddVertex, FindPointAhead"]}
{"id": "C78", "title": "A time on a trail is mapped to the place between the two vertices around it", "statement": "For a time between the first and the last time stamp the distance is the linear interpolation between two neighbouring vertices whose stamps enclose the time, whatever vertex the search starts from; before and after the trail its ends are returned with a code that says so; no vertex outside the trail is read.", "quantifier": "all vertex lists, times and start indices", "why_tests_cant": "all stamps and search starts", "anchors": ["EnvironmentSimulator/Modules/RoadManager/RoadManager.cpp: PolyLineBase::Time2S"]}
{"id": "C79", "title": "A polyline trajectory with time stamps is at each vertex at the time of the vertex", "statement": "Following a trajectory of advancing vertices, the vehicle is at each vertex at its time, never moves backward, never leaves the trajectory's range and never has a negative speed; with following mode position the place is the linear interpolation in time; after the last stamp it is at the end; stand-still phases are kept.", "quantifier": "all trajectories, initial speeds and times", "why_tests_cant": "all lists of vertices and real times", "anchors": ["EnvironmentSimulator/Modules/RoadManager/RoadManager.cpp: PolyLineShape::CalculatePolyLine, PolyLineShape::Evaluate"]}
{"id": "C80", "title": "Filtering of trajectory vertices keeps ends, order and spacing", "statement": "With the trajectory filter on, the first and the last vertex stay, the remaining time stamps are some of the original ones in the original order, no vertex is moved to a new place, no two neighbours before the last remain within the filter distance except for the ends of a stand-still phase, and no vertex outside the list is read. Vertices count as close only if place and heading are close.", "quantifier": "all vertex lists and closeness relations", "why_tests_cant": "all lists", "anchors": ["EnvironmentSimulator/Modules/RoadManager/RoadManager.cpp: PolyLineShape::FinalizeVertices, VerticesUnique"]}
{"id": "C81", "title": "Clothoid trajectories are passed from start time to end time", "statement": "A clothoid is at its start at its start time and at its end at its end time, at constant pace between; a clothoid spline passes each segment between its start time and that of the next; a copy behaves as the original; the vertices that represent the spline lie where their distance says.", "quantifier": "all clothoids, splines and times", "why_tests_cant": "all lengths and times", "anchors": ["EnvironmentSimulator/Modules/RoadManager/RoadManager.cpp: ClothoidShape::Evaluate, ClothoidSplineShape::Evaluate, CalculatePolyLine, Copy"]}
{"id": "C82", "title": "NURBS trajectories stay within their control points", "statement": "The basis functions are never negative, vanish outside their knots and add up to one, so each point of the curve lies within the range of the control points; the curve starts at the first control point if the first knot is repeated (as in the knot vector made up when none is given); moving a control point affects only the part of the curve near it.", "quantifier": "all orders, knot vectors, control points, positive weights and parameters", "why_tests_cant": "all real parameters and knot vectors", "anchors": ["EnvironmentSimulator/Modules/RoadManager/RoadManager.cpp: NurbsShape::CoxDeBoor, EvaluateInternal", "EnvironmentSimulator/Modules/ScenarioEngine/SourceFiles/ScenarioReader.cpp: parseTrajectory (knots)"]}
{"id": "C83", "title": "A speed profile in position mode is followed as specified", "statement": "A SpeedProfileAction in position mode takes the entity linearly from its speed to the speed of each entry, in the time of the entry or, if that would exceed the limits on acceleration or deceleration, in the time these limits allow; each step sets the speed of the profile at that time; at the end the entity has the last speed and the action ends.", "quantifier": "all lists of entries, speeds, limits and step times", "why_tests_cant": "all lists of entries and step sequences", "anchors": ["EnvironmentSimulator/Modules/ScenarioEngine/OSCTypeDefs/OSCPrivateAction.cpp: LongSpeedProfileAction::Start, Step"]}
{"id": "C84", "title": "A speed profile in follow mode is smooth", "statement": "A SpeedProfileAction in follow mode changes speed and acceleration without jumps, starting from the current speed and acceleration, keeps the limits on acceleration, jerk and speed, does not overshoot a single target, and ends at the last target with zero acceleration.", "quantifier": "all lists of entries, speeds, accelerations and limits", "why_tests_cant": "all real profiles and limits", "anchors": ["EnvironmentSimulator/Modules/ScenarioEngine/OSCTypeDefs/OSCPrivateAction.cpp: LongSpeedProfileAction::Start, AddSpeedSegment, Check..."]}
{"id": "C85", "title": "Moving along the road covers the distance on the linked lanes", "statement": "Moving a position by a distance leads to the place at exactly that distance along the lane: within a road to s plus or minus the distance, and over road ends to the lane linked there, at its start or its end, on the same side of the direction of travel, with the heading turned if the road runs the other way. At the end of a road without connection the position stops exactly there, and the end is reported.", "quantifier": "all networks, positions, distances and modes of direction", "why_tests_cant": "any number of roads, links and distances", "anchors": ["EnvironmentSimulator/Modules/RoadManager/RoadManager.cpp: Position::MoveAlongS, MoveToConnectingRoad, SetLanePos, DistanceToDS"]}
{"id": "C86", "title": "Moving is additive and reversible", "statement": "Moving by d and then by e gives the same place, lane and heading as moving by d+e, so that the result does not depend on the step size; moving by d and then by -d leads back.", "quantifier": "all networks, positions and distances", "why_tests_cant": "all splits of a distance", "anchors": ["EnvironmentSimulator/Modules/RoadManager/RoadManager.cpp: Position::MoveAlongS"]}
{"id": "C87", "title": "The connection taken in a junction is the right one", "statement": "If the position follows a route, a connection that leads to the next road of the route is taken, and the one on the route if there is one; otherwise the connection whose heading is closest to the selector angle is taken.", "quantifier": "all lists of connections, angles and random numbers", "why_tests_cant": "any number of connections", "anchors": ["EnvironmentSimulator/Modules/RoadManager/RoadManager.cpp: Position::MoveToConnectingRoad"]}
{"id": "C88", "title": "Distance along the road network is the shortest way", "statement": "The longitudinal distance between two positions in road coordinates is the length of the shortest way along linked roads, junctions and lanes, positive if it starts ahead of the vehicle and negative if behind; if none is found there is no way within the maximum distance.", "quantifier": "all networks, positions and maximum distances", "why_tests_cant": "any number of roads and junctions", "anchors": ["EnvironmentSimulator/Modules/RoadManager/RoadManager.cpp: RoadPath::Calculate, CheckRoad, Position::Delta, Distance"]}
{"id": "C89", "title": "Relative lane, side and direction follow the way", "statement": "The lane difference between two positions is the number of lanes between the lane of the first, followed along the way to the second, and the lane of the second; likewise whether they are on opposite sides and whether they head in the same direction.", "quantifier": "all networks and positions", "why_tests_cant": "all networks, lane links and headings", "anchors": ["EnvironmentSimulator/Modules/RoadManager/RoadManager.cpp: Position::Delta"]}
{"id": "C90", "title": "Lane change follows its dynamics", "statement": "A lane change moves the entity to the requested lane and offset following the given shape over the given time, or distance along the lane, or with the given rate; the entity stays between start and target, moves no farther than its speed allows, faces its direction of motion, and does not move sideways when standing still.", "quantifier": "all shapes, dimensions, speeds and sequences of time steps", "why_tests_cant": "real-valued speeds and time steps, any number of steps", "anchors": ["EnvironmentSimulator/Modules/ScenarioEngine/OSCTypeDefs/OSCPrivateAction.cpp: LatLaneChangeAction::Start, Step"]}
{"id": "C91", "title": "Lines, arcs and spirals have the given start, length and curvature", "statement": "A road geometry that is a line, an arc or a spiral starts at the given point with the given heading; a road coordinate s is reached after travelling s along it, the reported heading is the direction of travel, and the heading turns with the curvature given for the geometry, which for spirals changes evenly between the curvatures of its ends.", "quantifier": "all start poses, lengths, curvatures (left, right, none) and road coordinates", "why_tests_cant": "every real road coordinate and curvature; the claim is about derivatives of curves and about Fresnel integrals", "anchors": ["EnvironmentSimulator/Modules/RoadManager/RoadManager.cpp: Line::EvaluateDS, Arc::EvaluateDS, Spiral::Spiral, Spiral::EvaluateDS, EvaluateCurvatureDS", "EnvironmentSimulator/Modules/RoadManager/odrSpiral.cpp: odrSpiral"]}
{"id": "C92", "title": "Polynomial geometries follow their curve", "statement": "On a road geometry given by polynomials, positions are on the curve of the polynomials, the heading is the direction of the curve, the curve is passed from its start to its end without turning back or leaving out a part, and the reported curvature is that of the curve at the position.", "quantifier": "all coefficients, lengths and road coordinates, normalized and other parameter ranges", "why_tests_cant": "real coefficients and coordinates", "anchors": ["EnvironmentSimulator/Modules/RoadManager/RoadManager.cpp: Poly3::EvaluateDS, EvaluateDSLocal, EvaluateCurvatureDS, ParamPoly3::EvaluateDS, calcS2PMap, S2P, EvaluateCurvatureDS, Polynomial::Evaluate"]}
{"id": "C93", "title": "Distance and curvature beside the reference line", "statement": "A place with lateral distance t is t away from the reference line at a right angle to it, on the left for positive t; an entity that moves there moves the distance its speed demands, not the distance of the reference line, and the curvature reported for its lane is that of its own path.", "quantifier": "all lateral distances that are less than the radius, all curvatures and distances, level roads", "why_tests_cant": "real lateral distances and curvatures", "anchors": ["EnvironmentSimulator/Modules/RoadManager/RoadManager.cpp: Position::Track2XYZ, DistanceToDS, GetRoadLaneInfo"]}
{"id": "C94", "title": "Damped springs come to rest at their target", "statement": "A critically damped spring updated with a constant time step approaches its target value and comes to rest there, without passing it when released at rest; this holds for all tensions and time steps that are small enough, and a spring stays critically damped when its tension is changed.", "quantifier": "all start values, targets, tensions and time steps below the stated bound, any number of updates", "why_tests_cant": "limits of infinite sequences, real tensions and steps", "anchors": ["EnvironmentSimulator/Modules/CommonMini/CommonMini.hpp: DampedSpring"]}
{"id": "C95", "title": "Keeping a longitudinal distance", "statement": "A longitudinal distance action keeps the speed within the maximum speed, acceleration and deceleration within their limits and rates; it steers to the requested distance (or time gap) on the requested side of the other entity and keeps it when reached, at once if no limits are given; it ends when the distance is reached unless it is continuous.", "quantifier": "all limits, distances, speeds, time steps, any number of steps", "why_tests_cant": "real-valued states, behaviour in the limit", "anchors": ["EnvironmentSimulator/Modules/ScenarioEngine/OSCTypeDefs/OSCPrivateAction.cpp: LongDistanceAction::Start, Step"]}
{"id": "C96", "title": "Keeping a lateral distance", "statement": "A lateral distance action brings the entity to the requested distance beside the other entity, on the requested side and measured between the sides of the entities if free space is wanted, within the limits of acceleration, rate and speed, without changing its speed; without limits it approaches at a constant rate, does not overshoot and ends when the distance is reached unless it is continuous. Starting it again does the same.", "quantifier": "all distances, widths, limits, speeds and time steps, any number of steps", "why_tests_cant": "real-valued states, behaviour in the limit", "anchors": ["EnvironmentSimulator/Modules/ScenarioEngine/OSCTypeDefs/OSCPrivateAction.cpp: LatDistanceAction::Start, Step"]}
{"id": "C97", "title": "Synchronized arrival", "statement": "A synchronize action makes an entity reach its destination at the time the master entity reaches its own: with constant acceleration to the final speed if possible, otherwise with two phases of opposite acceleration, or with a stop on the way; a steady state at the final speed is kept before the destination; without a final speed the entity also arrives in time. While the master does not move the entity waits. The action ends on arrival, not before, and can be executed again.", "quantifier": "all distances, speeds, final speeds, tolerances, steady states and numbers of time steps", "why_tests_cant": "real-valued states, any number of steps; the claim is about the whole motion until arrival", "anchors": ["EnvironmentSimulator/Modules/ScenarioEngine/OSCTypeDefs/OSCPrivateAction.cpp: SynchronizeAction::Start, Step, CalcSpeedForLinearProfile"]}
{"id": "C98", "title": "Simple vehicle", "statement": "The simple vehicle moves as a vehicle whose wheels do not slip: per step it moves by speed times time, the rear axle along its heading and the front axle along its front wheels; the heading stays in [0, 2\u03c0). Speed and wheel angle never exceed their limits. Throttle accelerates by the share of the limit, braking stops the vehicle and holds it while the brake is applied, coasting slows it down at a rate in time, a target speed is approached and kept, released wheels return to straight. Disabled throttle or steering leaves speed or wheel angle alone and is reported as such.", "quantifier": "all vehicles, sequences of controls of all kinds, steps and times", "why_tests_cant": "any sequence of controls over real-valued states; motion is checked against rigid body velocities", "anchors": ["EnvironmentSimulator/Modules/Controllers/vehicle.cpp: Vehicle", "EnvironmentSimulator/Modules/Controllers/vehicle.hpp: Vehicle", "EnvironmentSimulator/Libraries/esminiLib/esminiLib.cpp: SE_SimpleVehicle..."]}
{"id": "C99", "title": "Adaptive cruise control", "statement": "The ACC controller follows the nearest entity in the way, that is ahead in lane within the look ahead distance or really close in front, and drives freely only if there is none. With a lead the speed is between zero and the set speed; behind a lead at constant speed it keeps the time gap; it never runs into a lead that does not reverse. Without a lead the speed approaches the set speed and does not pass it. Changes of speed respect the limits of acceleration and deceleration. A speed requested by an action becomes the new set speed. In virtual mode the acceleration of the controller is reported and the speed left alone.", "quantifier": "all sets of entities, speeds, gaps, settings and numbers of time steps", "why_tests_cant": "any number of steps with any motion of the lead, over real-valued states", "anchors": ["EnvironmentSimulator/Modules/Controllers/ControllerACC.cpp: ControllerACC::Step, Activate"]}
{"id": "C100", "title": "Distances, headway and time to collision in conditions", "statement": "A distance condition compares the absolute distance to the target: in the plane, or along the axes of the entity, the road or the trajectory, as asked for; a target that cannot be reached is far away. The time headway is the time after which the entity, keeping speed and direction, is where the target is now, and is undefined if the target is behind or the entity does not go forward. The time to collision is the time at which both meet if they keep their speeds, undefined if they do not meet.", "quantifier": "all positions, headings, speeds, coordinate systems and distance types", "why_tests_cant": "real-valued positions and speeds in all combinations of coordinate systems and directions of motion", "anchors": ["EnvironmentSimulator/Modules/ScenarioEngine/OSCTypeDefs/OSCCondition.cpp: TrigByTimeHeadway, TrigByTimeToCollision, TrigByDistance, TrigByRelativeDistance", "EnvironmentSimulator/Modules/ScenarioEngine/SourceFiles/Entities.cpp: Object::TimeHeadway, Object::TimeToCollision", "EnvironmentSimulator/Modules/RoadManager/RoadManager.cpp: Position::Distance, Position::getRelativeDistance"]}
{"id": "C101", "title": "Orientation, speed and acceleration in conditions", "statement": "A position is reached when the entity is closer than the tolerance and, if asked for, its angles differ from those of the position by less than the angular tolerance, whole turns aside. The angle condition holds exactly if the angle relative to road, lane, world or trajectory is within the tolerance of the value, whole turns aside. Speeds and accelerations are the components along, across and above the entity, and relative speeds the rate at which the entity moves in the frame of the reference entity.", "quantifier": "all positions, angles, velocities and tolerances", "why_tests_cant": "real-valued angles with all wrap-arounds", "anchors": ["EnvironmentSimulator/Modules/ScenarioEngine/OSCTypeDefs/OSCCondition.cpp: TrigByReachPosition, TrigByAngle, TrigBySpeed, TrigByAcceleration, TrigByRelativeSpeed", "EnvironmentSimulator/Modules/RoadManager/RoadManager.cpp: GetVelLong, GetVelLat, GetAcc, GetHRoadInDrivingDirection"]}
{"id": "C102", "title": "Durations of standing still, being off the road and at its end", "statement": "The conditions on standing still, being off the road and at the end of the road hold exactly if the entity has been in that state without interruption for the duration, counted from the step in which it entered the state.", "quantifier": "all sequences of steps with any times and any states", "why_tests_cant": "any number of steps with any pattern of interruptions", "anchors": ["EnvironmentSimulator/Modules/ScenarioEngine/SourceFiles/ScenarioEngine.cpp: ScenarioEngine::step", "EnvironmentSimulator/Modules/ScenarioEngine/SourceFiles/Entities.cpp: SetStandStill, SetOffRoad, SetEndOfRoad", "EnvironmentSimulator/Modules/ScenarioEngine/OSCTypeDefs/OSCCondition.cpp: TrigByStandStill, TrigByOffRoad, TrigByEndOfRoad"]}
{"id": "C103", "title": "Relative clearance", "statement": "The relative clearance condition holds for an entity exactly if none of the other entities is within the distances ahead and behind in the given lanes, and at least one of these lanes exists as a driving lane; lanes in the opposite direction count only if asked for.", "quantifier": "all sets of entities, distances, lane ranges and roads", "why_tests_cant": "any number of entities and lanes", "anchors": ["EnvironmentSimulator/Modules/ScenarioEngine/OSCTypeDefs/OSCCondition.cpp: TrigByRelativeClearance"]}
{"id": "C104", "title": "Motion reported for an entity", "statement": "Unless set by the user or a controller, the velocity of an entity times the time step is its movement in the step, its speed the length of the velocity, its acceleration times the time step the change of the velocity, and its heading rate and angular acceleration the same for the heading, whole turns aside. Values that were set are kept. After a teleport the velocity is along the heading. The odometer grows by the movement in each step, not by teleports, and so counts at least the distance covered. The wheels roll without slip and the steering angle fits speed and heading rate.", "quantifier": "all movements, headings, time steps and combinations of values that were set, any number of steps", "why_tests_cant": "real-valued positions and headings with wrap-arounds over any number of steps", "anchors": ["EnvironmentSimulator/Modules/ScenarioEngine/SourceFiles/ScenarioEngine.cpp: ScenarioEngine::prepareGroundTruth"]}
{"id": "C105", "title": "Trailers and rear axle", "statement": "After each step the coupler of each trailer is at the hitch of the vehicle that tows it, at any number of trailers, and all have the speed of the first vehicle; trailers are initially in line. The rear axle of a vehicle with an offset reference point keeps its distance and rolls along the heading without slipping sideways.", "quantifier": "all positions, headings, dimensions and numbers of trailers", "why_tests_cant": "real-valued geometry and any number of trailers", "anchors": ["EnvironmentSimulator/Modules/ScenarioEngine/SourceFiles/ScenarioEngine.cpp: ScenarioEngine::step", "EnvironmentSimulator/Modules/ScenarioEngine/SourceFiles/Entities.cpp: Vehicle::AlignTrailers", "EnvironmentSimulator/Modules/CommonMini/CommonMini.hpp: SE_Vector"]}
{"id": "C106", "title": "Trail of an entity", "statement": "The trail of an entity consists of states it was in, in the order of time and at least the sampling time apart; samples are kept, and while the entity moves the last one is never older than the sampling time.", "quantifier": "all sequences of states at any times and any sampling time", "why_tests_cant": "any number of steps with any time steps and speeds", "anchors": ["EnvironmentSimulator/Modules/ScenarioEngine/SourceFiles/ScenarioEngine.cpp: ScenarioEngine::prepareGroundTruth"]}
{"id": "C107", "title": "Following a trajectory", "statement": "Without time reference the entity covers exactly speed times time on the trajectory and past its end, in the direction given by the signs of speed and heading; without specified headings it goes forward with its heading along or against the line. With relative or absolute time it is where the trajectory is at the scaled and shifted time, and its speed is that of its movement. The action ends in the step in which the end is reached; what is left of the step is covered past the end. On a closed trajectory it goes on. A copy for a ghost does the same as the original.", "quantifier": "all trajectories, speeds, time references, scales, offsets and sequences of time steps", "why_tests_cant": "any trajectory and any sequence of real-valued time steps", "anchors": ["EnvironmentSimulator/Modules/ScenarioEngine/OSCTypeDefs/OSCPrivateAction.cpp: FollowTrajectoryAction::Start, Step, Move", "EnvironmentSimulator/Modules/ScenarioEngine/OSCTypeDefs/OSCPrivateAction.hpp: FollowTrajectoryAction copy constructor", "EnvironmentSimulator/Modules/RoadManager/RoadManager.cpp: Position::MoveTrajectoryDS, SetTrajectoryPosByTime, RMTrajectory::Copy"]}
{"id": "C108", "title": "Ground truth over UDP arrives as it was sent", "statement": "A ground truth message sent over UDP is split into packets of at most 8192 bytes, numbered from 1, of which only the last one has a negative number, and the receivers supplied with esmini return exactly the messages that were sent. If packets are lost, the receiver may miss messages but never returns something that was not sent, and it returns the next message that arrives completely.", "quantifier": "all messages of any size, all sequences of messages, all losses and failures to send", "why_tests_cant": "messages of any size and any pattern of losses", "anchors": ["EnvironmentSimulator/Modules/ScenarioEngine/SourceFiles/OSIReporter.cpp: UpdateOSIGroundTruth", "scripts/udp_driver/udp_osi_common.py: OSIReceiver.receive", "EnvironmentSimulator/Applications/replayer/osi_receiver.cpp: main"]}
{"id": "C109", "title": "OSI trace files are read back", "statement": "The messages written to an OSI trace file are read back one by one by the supplied script, whatever they contain. From a file that is cut, all complete messages are read and at most one more, which is a beginning of the next.", "quantifier": "all sequences of messages, all places where a file may be cut", "why_tests_cant": "any content and any length", "anchors": ["EnvironmentSimulator/Modules/ScenarioEngine/SourceFiles/OSIReporter.cpp: WriteOSIFile", "scripts/osi2csv.py: OSIFile.read_next_message"]}
{"id": "C110", "title": "When ground truth is reported", "statement": "With OSI frequency n the ground truth is reported with the first step after it was set and with every n-th step after that, each once, however often the application fetches data, and with the state of that very step. Switching the OSI file on makes esmini write every step. No sequence of calls crashes.", "quantifier": "all frequencies, all sequences of steps, fetches and other calls", "why_tests_cant": "any interleaving of calls of any length", "anchors": ["EnvironmentSimulator/Modules/ScenarioEngine/SourceFiles/OSIReporter.cpp: UpdateOSIGroundTruth", "EnvironmentSimulator/Modules/ScenarioEngine/SourceFiles/OSIReporter.hpp: SetOSIFrequency, UpdateCounterOffset", "EnvironmentSimulator/Modules/PlayerBase/playerbase.cpp: ScenarioPlayer::Frame, ScenarioPostFrame", "EnvironmentSimulator/Libraries/esminiLib/esminiLib.cpp: SE_EnableOSIFile, SE_GetOSIGroundTruth, SE_SetOSIFrequency"]}
{"id": "C111", "title": "Static content of the ground truth", "statement": "By default road data and stationary objects are reported exactly once: with the first message, or with the first message after the object entered the scenario; the file holds the same as the application gets. With static reporting set to API the application gets all of them in every message, with API_AND_LOG the file as well. Objects that left the scenario are not reported.", "quantifier": "all sequences of steps, fetches, objects entering and leaving, files and modes switched", "why_tests_cant": "any interleaving of calls of any length", "anchors": ["EnvironmentSimulator/Modules/ScenarioEngine/SourceFiles/OSIReporter.cpp: UpdateOSIGroundTruth, UpdateOSIStaticGroundTruth, UpdateOSIStationaryObject, GetOSIGroundTruth", "EnvironmentSimulator/Libraries/esminiLib/esminiLib.cpp: SE_SetOSIStaticReportMode, SE_EnableOSIFile"]}
{"id": "C112", "title": "OSI time stamps", "statement": "The time stamp of a message is the simulation time, at most one nanosecond less, with nanoseconds below one second, and never decreases with time. A time stamp set by the application is reported exactly.", "quantifier": "all simulation times and all time stamps", "why_tests_cant": "any rational time", "anchors": ["EnvironmentSimulator/Modules/ScenarioEngine/SourceFiles/OSIReporter.cpp: UpdateOSIDynamicGroundTruth", "EnvironmentSimulator/Libraries/esminiLib/esminiLib.cpp: SE_OSISetTimeStamp"]}
{"id": "C113", "title": "Cropped ground truth", "statement": "After SE_CropOSIDynamicGroundTruth the ground truth holds exactly the vehicles and pedestrians closer than the radius to an entity for which a radius is set, and such entities themselves, each once. The last call for an entity counts; radius 0 removes it; with no radius set all are reported.", "quantifier": "all sequences of calls, all sets of entities and positions", "why_tests_cant": "any number of entities and areas", "anchors": ["EnvironmentSimulator/Modules/ScenarioEngine/SourceFiles/OSIReporter.cpp: CropOSIDynamicGroundTruth, UpdateOSIDynamicGroundTruth"]}
{"id": "C114", "title": "Value of an arithmetic expression", "statement": "An expression in a scenario file, written with numbers, pi and e, operators, parentheses and the documented functions, with any blanks, has the value given by the grouping: signs - ! ^ first, then ** * / %, then + -, << >>, comparisons, &, |, ^, && and ||; equal ones from the left, ** from the right; arguments in the order written.", "quantifier": "all expressions of any length and nesting, all ways to put blanks, all arithmetics (also floating point)", "why_tests_cant": "any nesting", "anchors": ["externals/expr/expr.h: expr_create, expr_next_token, expr_bind, expr_eval", "EnvironmentSimulator/Modules/ScenarioEngine/SourceFiles/simple_expr.c: eval_expr"]}
{"id": "C115", "title": "Decimal numbers in expressions", "statement": "A number in an expression has the value its digits denote in the decimal system, with or without decimals and with an exponent.", "quantifier": "all numbers of any length", "why_tests_cant": "any number of digits", "anchors": ["externals/expr/expr.h: expr_parse_number"]}
{"id": "C116", "title": "Joining strings in expressions", "statement": "An expression in which parts are joined by + and one part is a word that is neither a constant nor a function is the text of the parts one after another, without the blanks around the +.", "quantifier": "all numbers of parts, all contents", "why_tests_cant": "any parts", "anchors": ["externals/expr/expr.h: expr_create, expr_next_token"]}
{"id": "C117", "title": "Operator names of OpenSCENARIO", "statement": "In an expression the names not, and, or, true and false mean the same as !, &&, ||, 1 and 0.", "quantifier": "all expressions", "why_tests_cant": "any text around the names", "anchors": ["EnvironmentSimulator/Modules/ScenarioEngine/SourceFiles/Parameters.cpp: ReadAttribute"]}
{"id": "C118", "title": "Truth values by expressions", "statement": "A boolean attribute or parameter given by an expression is true exactly if the expression is.", "quantifier": "all expressions", "why_tests_cant": "any expression", "anchors": ["EnvironmentSimulator/Modules/ScenarioEngine/SourceFiles/Parameters.cpp: ReadAttribute", "EnvironmentSimulator/Modules/ScenarioEngine/SourceFiles/Parameters.cpp: addParameterDeclarations"]}
{"id": "C119", "title": "Malformed expressions are refused", "statement": "A text that is not an expression, for instance with parentheses that do not match or with arguments missing, does not get a numerical value, and never makes the program read outside its data.", "quantifier": "all texts", "why_tests_cant": "any text", "anchors": ["externals/expr/expr.h: expr_create", "EnvironmentSimulator/Modules/ScenarioEngine/SourceFiles/simple_expr.c: eval_expr"]}
{"id": "C120", "title": "An attribute has the value of its expression", "statement": "An attribute given by an expression has the value of the expression.", "quantifier": "all values", "why_tests_cant": "any value", "anchors": ["EnvironmentSimulator/Modules/ScenarioEngine/SourceFiles/Parameters.cpp: ReadAttribute"]}
{"id": "C121", "title": "Variable actions", "statement": "SetAction, AddValue and MultiplyByValue give the named variable the value written, the sum or the product, and leave all others alone; the library calls read these values; the action starts and ends, and a value given by a parameter is the value of that parameter.", "quantifier": "all sequences of actions on any variables of any type, all values", "why_tests_cant": "any order and number of actions", "anchors": ["EnvironmentSimulator/Modules/ScenarioEngine/OSCTypeDefs/OSCGlobalAction.cpp: VariableSetAction, VariableAddAction, VariableMultiplyByAction", "EnvironmentSimulator/Modules/ScenarioEngine/SourceFiles/ScenarioReader.cpp: parseOSCGlobalAction"]}
{"id": "C122", "title": "Conditions on variables and parameters", "statement": "A condition on a variable or parameter holds exactly if its present value is in the relation that the rule names to the given value.", "quantifier": "all variables, types, values and rules", "why_tests_cant": "any values", "anchors": ["EnvironmentSimulator/Modules/ScenarioEngine/OSCTypeDefs/OSCCondition.cpp: TrigByParameter, TrigByVariable"]}
{"id": "C123", "title": "Normalized paths", "statement": "The path reported for a located file names the same place as the path that was found, whatever the working directory; two paths that always name the same place get the same text, and no path to that place is shorter.", "quantifier": "all paths, all working directories", "why_tests_cant": "any text with dots, double dots and both kinds of slash", "anchors": ["EnvironmentSimulator/Modules/CommonMini/CommonMini.cpp: LexicallyNormalizePath"]}
{"id": "C124", "title": "Search for files", "statement": "A file referred to by a scenario is taken from the first place that has it in the documented order: the path as given, its name in the working directory, both in each user path, both in each special directory; a file beside the scenario is found from every working directory.", "quantifier": "all paths, user paths, directories and file systems", "why_tests_cant": "any combination of existing files and paths", "anchors": ["EnvironmentSimulator/Modules/CommonMini/CommonMini.cpp: LocateFile, CombineDirectoryPathAndFilepath, DirNameOf, FileNameOf"]}
{"id": "C125", "title": "Names of output files of parameter runs", "statement": "With a parameter distribution every run has its own output files, in the directory and with the extension that the user asked for.", "quantifier": "all file names, numbers of runs and indices", "why_tests_cant": "any path", "anchors": ["EnvironmentSimulator/Modules/ScenarioEngine/OSCTypeDefs/OSCParameterDistribution.cpp: AddInfoToFilepath", "EnvironmentSimulator/Modules/CommonMini/CommonMini.cpp: FilePathWithoutExtOf, FileNameExtOf, FileNameWithoutExtOf", "EnvironmentSimulator/Modules/PlayerBase/playerbase.cpp: csv_logger, logfile_path, record"]}
{"id": "C126", "title": "Driving over UDP", "statement": "A state message makes its entity have exactly the reported position, heading, speed and wheel angle and touches no other; until the next message the entity extrapolates with the last heading and speed if and only if the message asks for it; only the latest message of a step counts in asynchronous mode and every message, one per step, in synchronous mode; messages that are reported as ignored have no effect; changing from state messages to driver input continues the motion.", "quantifier": "all messages, all queues of messages, all runs of steps of any durations between messages", "why_tests_cant": "any number of messages and steps, any durations", "anchors": ["EnvironmentSimulator/Modules/Controllers/ControllerUDPDriver.cpp: Step", "docs/user_guide/controllers.adoc: UDPDriverController"]}
{"id": "C127", "title": "OSI traffic commands", "statement": "Every private action of the supported kinds is part of exactly one traffic command after it starts, in the order of the starts, with its id, its entity as participant, the distance or duration and shape of the scenario, and its target: the lanes to cross, the speed aimed at, the poses.", "quantifier": "all sequences of state changes of actions and reports, all entities and actions", "why_tests_cant": "any number of actions, entities and frames", "anchors": ["EnvironmentSimulator/Modules/ScenarioEngine/SourceFiles/OSITrafficCommand.cpp: ReportTrafficCommand", "EnvironmentSimulator/Modules/ScenarioEngine/SourceFiles/OSIReporter.cpp: UpdateOSITrafficCommand"]}
{"id": "C128", "title": "Injected actions", "statement": "An injected action stops any earlier one of the same type on the same object, so that of those only the last is carried out; it stays in force until it ends by itself; afterwards it is no longer carried out and no longer reported as ongoing.", "quantifier": "all sequences of injections and frames, all actions and objects, any moments of ending", "why_tests_cant": "any number of actions in any order", "anchors": ["EnvironmentSimulator/Modules/PlayerBase/PlayerServer.cpp: AddAction, Step, InjectedActionOngoing", "EnvironmentSimulator/Modules/ScenarioEngine/SourceFiles/ScenarioEngine.cpp: step"]}
{"id": "C129", "title": "Object callbacks of the library", "statement": "In each frame each callback registered for an existing object since the start of the scenario is called once, with its own user data.", "quantifier": "all sequences of registrations and restarts, all sets of existing objects", "why_tests_cant": "any number of registrations", "anchors": ["EnvironmentSimulator/Libraries/esminiLib/esminiLib.cpp: SE_RegisterObjectCallback, objCallbackFn", "EnvironmentSimulator/Modules/PlayerBase/playerbase.cpp: ScenarioFrame"]}
{"id": "C130", "title": "Permitted lane changes", "statement": "SE_ObjectCanChangeLanes reports a change to the left or right exactly if there is a driving lane beside that of the object on the same side of the reference line and the road mark in force between the two permits it.", "quantifier": "all lane sections, road marks, lanes and positions", "why_tests_cant": "any number of lanes and marks", "anchors": ["EnvironmentSimulator/Libraries/esminiLib/esminiLib.cpp: SE_ObjectCanChangeLanes, GetRoadMarkAtS, RoadMarkAllowsLaneChange", "EnvironmentSimulator/Modules/RoadManager/RoadManager.cpp: LaneRoadMark parsing"]}
{"id": "C131", "title": "Objects of the library by id", "statement": "Settings made by id reach the object with that id as long as it exists; deleting an object deletes its controllers and uses none of them afterwards.", "quantifier": "all registries, ids and lists of controllers", "why_tests_cant": "any number of objects, deletions and controllers", "anchors": ["EnvironmentSimulator/Libraries/esminiLib/esminiLib.cpp: SE_SetSnapLaneTypes, SE_SetLockOnLane, SE_DeleteObject", "EnvironmentSimulator/Modules/ScenarioEngine/SourceFiles/Entities.cpp: UnassignController"]}
{"id": "C132", "title": "Natural driver", "statement": "A vehicle under the natural driver model keeps its speed between zero and the desired one and within that of the vehicle, changes it no faster than its limits allow, reaches for the desired speed on a free road, brakes fully when too close to the closest vehicle ahead; it changes only to driving lanes beside it, only if the new follower need not brake harder than permitted, and not again before the duration and delay have passed.", "quantifier": "all properties, surroundings, time steps and runs", "why_tests_cant": "any number of steps and vehicles, real-valued speeds and distances", "anchors": ["EnvironmentSimulator/Modules/Controllers/ControllerNaturalDriver.cpp: Step, GetAcceleration, CheckLaneChangePossible, AdjacentLanesAvailable"]}
{"id": "C133", "title": "ALKS reference driver", "statement": "A vehicle under the reference driver of UN regulation 157 keeps its speed between zero and the one set last and stays at rest once stopped; it brakes automatically at once, at up to 0.85 g and until standstill, for a slower vehicle fully in its way within two seconds, in whatever order the entities are listed; the driver brakes for a cut-in or a braking vehicle no earlier than 0.75 s and no later than 1.15 s after noticing it, never lets go before standstill, and reacts to nothing else.", "quantifier": "all surroundings, time steps and runs", "why_tests_cant": "any number of steps and vehicles, real-valued distances, speeds and time steps", "anchors": ["EnvironmentSimulator/Modules/Controllers/ControllerECE_ALKS_RefDriver.cpp: Step, Reset, Activate"]}
{"id": "C134", "title": "R157 regulation model does not collide", "statement": "A vehicle under the UN regulation 157 controller with the model 'Regulation' never touches a vehicle ahead in its lane that does not slow down, with time steps of at most 0.2 s, if a collision could still be avoided by braking with 6 m/s2 when that vehicle came into its way.", "quantifier": "all speeds, distances, runs of any length, sequences of time steps up to 0.2 s and non-decreasing speeds of the vehicle ahead", "why_tests_cant": "closed loop of any length over real-valued states", "anchors": ["EnvironmentSimulator/Modules/Controllers/ControllerALKS_R157SM.cpp: Regulation::MinDist, Regulation::CheckCritical, Regulation::ReactCritical, Model::Cruise, Model::Step"]}
{"id": "C135", "title": "R157 alarms are right", "statement": "Under the models 'RSS' and 'FSM' of the UN regulation 157 controller, as long as a vehicle ahead gives no alarm, it may brake to standstill at any moment: braking with the deceleration of the model after its reaction time avoids a collision at every instant (RSS: even when accelerating during the reaction time; FSM: keeping the two margins). An RSS alarm is only given when that worst case would end in a collision. The FSM criteria are between 0 and 1 and do not fall when the distance gets shorter.", "quantifier": "all speeds, distances and instants", "why_tests_cant": "real-valued time and states", "anchors": ["EnvironmentSimulator/Modules/Controllers/ControllerALKS_R157SM.cpp: RSS::CheckCritical, FSM::CheckCritical, FSM::PFS, FSM::CFS"]}
{"id": "C136", "title": "R157 limits of speed and deceleration", "statement": "The UN regulation 157 controller keeps the speed between zero and the set speed and never brakes harder than the largest deceleration of its model.", "quantifier": "all surroundings, time steps and states", "why_tests_cant": "real-valued states, any vehicle in focus", "anchors": ["EnvironmentSimulator/Modules/Controllers/ControllerALKS_R157SM.cpp: Model::Cruise, Regulation::ReactCritical, RSS::ReactCritical, FSM::ReactCritical"]}
{"id": "C137", "title": "R157 watches the closest threat", "statement": "Among the entities it regards as a threat, the UN regulation 157 controller (models 'Regulation', 'RSS', 'FSM') reacts to a closest one, and it misses none, whatever the order of the entities.", "quantifier": "all lists of entities", "why_tests_cant": "lists of any length in any order", "anchors": ["EnvironmentSimulator/Modules/Controllers/ControllerALKS_R157SM.cpp: Model::Detect"]}
{"id": "C138", "title": "Position handles of the road manager library", "statement": "RM_CreatePosition and RM_CopyPosition return a handle not in use and leave all other positions as they are; a call on a handle changes only the position of that handle; a handle that does not exist gives -1 and changes nothing; deleting a position leaves the other handles valid for the same positions; loading a road network starts without positions and a failed load leaves the library uninitialised.", "quantifier": "all numbers of positions, handles and effects of the calls", "why_tests_cant": "any number of positions and any integer handle", "anchors": ["EnvironmentSimulator/Libraries/esminiRMLib/esminiRMLib.cpp: RM_Init, RM_InitWithString, RM_Close, RM_CreatePosition, RM_GetNrOfPositions, RM_DeletePosition, RM_CopyPosition, RM_SetLanePosition, RM_GetPositionData"]}
{"id": "C139", "title": "Lanes of a road by index", "statement": "RM_GetLaneIdByIndex succeeds exactly for the indices from 0 to RM_GetRoadNumberOfLanes - 1 with the same type mask, and over these indices it gives each lane whose type is in the mask once, in order from left to right.", "quantifier": "all lane sections, masks and indices", "why_tests_cant": "lane sections of any size, any mask", "anchors": ["EnvironmentSimulator/Libraries/esminiRMLib/esminiRMLib.cpp: RM_GetRoadNumberOfLanes, RM_GetLaneIdByIndex, RM_GetRoadNumberOfDrivableLanes, RM_GetDrivableLaneIdByIndex"]}
{"id": "C140", "title": "Signs and options of the road manager library", "statement": "RM_GetRoadSignValidityRecord succeeds exactly for the indices below RM_GetNumberOfRoadSignValidityRecords, and both report an error for a sign that does not exist. RM_GetOptionValue returns the value of the option asked for.", "quantifier": "all signs, indices and options", "why_tests_cant": "any number of signs, records and calls", "anchors": ["EnvironmentSimulator/Libraries/esminiRMLib/esminiRMLib.cpp: RM_GetNumberOfRoadSignValidityRecords, RM_GetRoadSignValidityRecord, RM_GetOptionValue", "EnvironmentSimulator/Modules/RoadManager/RoadManager.cpp: Road::GetSignal"]}
{"id": "C141", "title": "Modes of RM_SetWorldPositionMode", "statement": "RM_SetWorldPositionMode uses the mode given for each of z, heading, pitch and roll; a part that is not given or default is absolute; no part influences another.", "quantifier": "all modes", "why_tests_cant": "all combinations of bits", "anchors": ["EnvironmentSimulator/Libraries/esminiRMLib/esminiRMLib.cpp: RM_SetWorldPositionMode"]}
{"id": "C142", "title": "Identifiers of roads and junctions", "statement": "Whatever texts are used as road identifiers in the OpenDRIVE file, every road gets a number of its own; a road whose text is a number has that number (the last one, if several are equal); asking for the text of a number and the number of a text are inverse to each other, and unknown texts give the undefined number. A road made by the program gets a number no road has.", "quantifier": "all lists of identifiers", "why_tests_cant": "any number of roads and any texts", "anchors": ["EnvironmentSimulator/Modules/RoadManager/RoadManager.cpp: OpenDrive::EstablishUniqueIds, OpenDrive::GetRoadById, OpenDrive::GetRoadByIdStr, OpenDrive::GenerateRoadId", "EnvironmentSimulator/Libraries/esminiRMLib/esminiRMLib.cpp: RM_GetRoadIdString, RM_GetRoadIdFromString"]}
{"id": "C143", "title": "Looking along the driving direction", "statement": "With inRoadDrivingDirection, SE_GetRoadInfoAtDistance, RM_GetLaneInfo and RM_GetProbeInfo look in the driving direction of the lane, whichever way the vehicle is heading: the distance is counted backwards exactly for a vehicle that heads against the driving direction.", "quantifier": "all headings, driving directions and distances", "why_tests_cant": "real-valued angles", "anchors": ["EnvironmentSimulator/Libraries/esminiLib/esminiLib.cpp: GetRoadInfoAtDistance", "EnvironmentSimulator/Libraries/esminiRMLib/esminiRMLib.cpp: GetRoadInfo"]}
{"id": "C144", "title": "Environment actions add up", "statement": "After any sequence of environment actions, each quantity (time of day, pressure, temperature, clouds, sun, fog, precipitation, wind, friction) has the value of the latest action that gives it, limited to its allowed range, and a quantity no action gives is not set; actions that give other quantities do not change it.", "quantifier": "all sequences of environment actions", "why_tests_cant": "sequences of any length, real values", "anchors": ["EnvironmentSimulator/Modules/ScenarioEngine/OSCTypeDefs/OSCEnvironment.cpp: OSCEnvironment::UpdateEnvironment, OSCEnvironment::SetAtmosphericPressure, OSCEnvironment::SetTemperature, OSCEnvironment::SetWind, OSCEnvironment::SetSun", "EnvironmentSimulator/Modules/ScenarioEngine/OSCTypeDefs/OSCGlobalAction.cpp: EnvironmentAction::Start"]}
{"id": "C145", "title": "Weather classes and factors", "statement": "The classes of fog, precipitation and illumination in the OSI report are those of the documented limits and never fall when the visual range, the precipitation or the illuminance rises. The factors recorded for clouds, fog and sunlight are between 0 and 1; without a sun the daylight factor is 1 at noon, 0 at midnight, symmetric about noon and rises until noon.", "quantifier": "all values", "why_tests_cant": "real values", "anchors": ["EnvironmentSimulator/Modules/ScenarioEngine/SourceFiles/OSIReporter.cpp: OSIReporter::UpdateEnvironmentFog, OSIReporter::UpdateEnvironmentPrecipitation, OSIReporter::UpdateEnvironmentSun", "EnvironmentSimulator/Modules/ScenarioEngine/OSCTypeDefs/OSCEnvironment.cpp: OSCEnvironment::GetSunIntensityFactor, OSCEnvironment::GetFogVisibilityRangeFactor, OSCEnvironment::GetFractionalCloudStateFactor", "EnvironmentSimulator/Modules/CommonMini/CommonMini.cpp: GetSecondsToFactor"]}
{"id": "C146", "title": "Time of day", "statement": "The seconds since midnight in the OSI report are those of the date and time of the latest environment action; with animation they are those of that time plus the simulation time since the action, as a time inside a day.", "quantifier": "all dates and times, all sequences of time stamps", "why_tests_cant": "texts and runs of any length", "anchors": ["EnvironmentSimulator/Modules/ScenarioEngine/SourceFiles/OSIReporter.cpp: OSIReporter::UpdateEnvironmentTimeOfDay", "EnvironmentSimulator/Modules/CommonMini/CommonMini.cpp: GetSecondsSinceMidnight"]}
{"id": "C147", "title": "Environment in a recording", "statement": "At every frame, the last environment in the .dat recording (or the defaults of the replayer, if there is none yet) has the visual range, friction, cloud and sunlight factors of the simulation.", "quantifier": "all sequences of environment actions over all frames", "why_tests_cant": "runs of any length; records are left out when nothing changed", "anchors": ["EnvironmentSimulator/Modules/ScenarioEngine/SourceFiles/PacketHandler.cpp: Dat::DatWriter::WriteEnvironmentToDat, Dat::DatWriter::IsEnvironmentEqual, Dat::DatWriter::UpdateEnvironmentCache"]}
{"id": "C148", "title": "Speed of the sloppy driver", "statement": "A vehicle driven by the sloppy driver controller in override mode with a sloppiness from 0 to 1 always drives at a speed at most 35 % times the sloppiness away from its reference speed: the one at activation, or the one set last by somebody else once the controller has taken it over; the distance driven is at most what the highest of these speeds gives.", "quantifier": "all runs, all random numbers, all time steps", "why_tests_cant": "random numbers; runs of any length, real values", "anchors": ["EnvironmentSimulator/Modules/Controllers/ControllerSloppyDriver.cpp: ControllerSloppyDriver::Step, ControllerSloppyDriver::Activate"]}
{"id": "C149", "title": "Sideways movement of the sloppy driver", "statement": "Without sloppiness, the sloppy driver controller keeps a vehicle that drives straight in its lane where it is, whatever the lane and the direction of the road; with sloppiness the offset it aims at is at most 7.5 m times the square of the sloppiness.", "quantifier": "all lanes, roads, time steps and speeds", "why_tests_cant": "all states; random numbers", "anchors": ["EnvironmentSimulator/Modules/Controllers/ControllerSloppyDriver.cpp: ControllerSloppyDriver::Step, ControllerSloppyDriver::Activate"]}
{"id": "C150", "title": "A reference entity is reached", "statement": "A vehicle with the follow reference controller on the straight line on which its reference entity drives at constant speed reaches it: the distance and the difference of the speeds vanish in time, whatever the stiffness and the time step; from behind and with the speed of the reference entity it never passes it, the distance never grows, and the acceleration stays in the limits of the vehicle.", "quantifier": "all positions, speeds, stiffnesses, time steps; runs of any length", "why_tests_cant": "limits over infinite runs, real values", "anchors": ["EnvironmentSimulator/Modules/Controllers/ControllerFollowReference.cpp: ControllerFollowReference::Step", "EnvironmentSimulator/Modules/Controllers/ControllerFollowReference.hpp: CriticallyDampedSpring", "EnvironmentSimulator/Modules/Controllers/vehicle.cpp: Vehicle::DrivingControlAccAndSteer"]}
{"id": "C151", "title": "Steering to a reference entity", "statement": "A vehicle with the follow reference controller beside the axis of a reference entity that drives straight turns its wheels towards the axis, at most by 60 degrees, and moves and turns to that side; on the axis it does not steer, forwards or backwards.", "quantifier": "all offsets, speeds, gains and time steps", "why_tests_cant": "real values", "anchors": ["EnvironmentSimulator/Modules/Controllers/ControllerFollowReference.cpp: ControllerFollowReference::Step", "EnvironmentSimulator/Modules/Controllers/ControllerFollowReference.hpp: StanleyController::computeSteering"]}
{"id": "C152", "title": "Speed with the looming controller", "statement": "A vehicle driven by the looming controller approaches its set speed when there is nothing in front and does not pass it; it follows the nearest vehicle ahead in its lane, brakes if it is nearer than the distance to keep and not slower than that vehicle, has a balance exactly at the distance to keep, never drives backwards and never exceeds its set speed by acceleration.", "quantifier": "all entities in all orders, all behaviours of vehicles in front, runs of any length", "why_tests_cant": "real values, all orders of entities", "anchors": ["EnvironmentSimulator/Modules/Controllers/ControllerLooming.cpp: ControllerLooming::Step", "EnvironmentSimulator/Modules/Controllers/vehicle.cpp: Vehicle::DrivingControlAnalog"]}
{"id": "C153", "title": "Lane changes of the follow route controller", "statement": "The follow route controller starts a lane change only towards a lane that exists and, with its collision check on, only if no other entity in the lanes to be crossed or entered is nearer than the minimum distance; entities that are not in these lanes do not prevent it.", "quantifier": "all lanes, all numbers and places of entities", "why_tests_cant": "all combinations of roads, lanes and distances", "anchors": ["EnvironmentSimulator/Modules/Controllers/ControllerFollowRoute.cpp: ControllerFollowRoute::CanChangeLane"]}
{"id": "C154", "title": "Waypoints of the follow route controller", "statement": "A waypoint on the road of the vehicle counts as passed when the vehicle reaches it in a lane that leads to it, as missed in any other lane; after a recalculation the vehicle on one of the roads of its route is sent to the next waypoint of the scenario after its road, and nothing is read out of range.", "quantifier": "all routes and places", "why_tests_cant": "routes of any length", "anchors": ["EnvironmentSimulator/Modules/Controllers/ControllerFollowRoute.cpp: ControllerFollowRoute::GetWaypointStatus, ControllerFollowRoute::CalculateWaypoints, ControllerFollowRoute::Step", "EnvironmentSimulator/Modules/RoadManager/RoadManager.cpp: Route::AddWaypoint, Route::AddWaypointInternal"]}
{"id": "C155", "title": "Number of swarm vehicles", "statement": "Swarm traffic never has more vehicles than the number given in the TrafficSwarmAction, and can have that number.", "quantifier": "all numbers of vehicles, all runs, all places found, all random numbers", "why_tests_cant": "runs of any length with any random numbers", "anchors": ["EnvironmentSimulator/Modules/ScenarioEngine/OSCTypeDefs/OSCGlobalAction.cpp: SwarmTrafficAction::Step, SwarmTrafficAction::spawn, SwarmTrafficAction::sampleRoads, SwarmTrafficAction::despawn"]}
{"id": "C156", "title": "Removal of swarm vehicles", "statement": "A swarm vehicle is removed exactly when at an update it is off the road, at the end of the road or outside the outer ellipse, or has not been inside the ellipse in the middle at six updates in a row; a vehicle removed from the scenario by something else does no harm.", "quantifier": "all swarms, all histories", "why_tests_cant": "histories of any length", "anchors": ["EnvironmentSimulator/Modules/ScenarioEngine/OSCTypeDefs/OSCGlobalAction.cpp: SwarmTrafficAction::despawn", "EnvironmentSimulator/Modules/ScenarioEngine/OSCTypeDefs/OSCSwarmTrafficGeometry.cpp: ellipse"]}
{"id": "C157", "title": "Places of new swarm vehicles", "statement": "A new swarm vehicle appears at a place found on the ellipse, in a driving lane, heading in the driving direction of the lane, not on a junction and not within 20 m of another vehicle.", "quantifier": "all road networks, all places, all random numbers", "why_tests_cant": "any number of places, lanes and vehicles", "anchors": ["EnvironmentSimulator/Modules/ScenarioEngine/OSCTypeDefs/OSCGlobalAction.cpp: SwarmTrafficAction::spawn, SwarmTrafficAction::sampleRoads, SwarmTrafficAction::ensureDistance", "EnvironmentSimulator/Modules/ScenarioEngine/OSCTypeDefs/OSCUtils.hpp: sample"]}
{"id": "C158", "title": "Swarm places on the ellipse", "statement": "The places where swarm vehicles may appear are on the ellipse midway between the inner radius and the outer ellipse around the central entity.", "quantifier": "all ellipses, all directions, all pieces of road", "why_tests_cant": "continuous positions and directions", "anchors": ["EnvironmentSimulator/Modules/ScenarioEngine/OSCTypeDefs/OSCSwarmTrafficGeometry.cpp: ellipse, paramEllipse, angleTangentEllipse, tangentIntersection, brent_zeros, geometryIntersect"]}
{"id": "C159", "title": "Vehicles for swarm traffic", "statement": "The vehicle pool holds exactly the catalog vehicles of the wanted categories; a vehicle asked for by category is of that category, otherwise categories are taken in proportion to their weights and one with weight zero never.", "quantifier": "all catalogs, all categories and weights, all random numbers", "why_tests_cant": "catalogs of any size", "anchors": ["EnvironmentSimulator/Modules/ScenarioEngine/SourceFiles/VehiclePool.cpp: VehiclePool::Initialize, VehiclePool::AddVehicle, VehiclePool::GetRandomVehicle"]}
{"id": "C160", "title": "Positions relative to the lane or road of an entity", "statement": "A RelativeLanePosition is on the lane that the lane of the reference entity becomes after the given distance, `dLane` lanes beside it and with the given offset: with `ds` distance, lanes and offset count in the direction of the road axis and to its left, with `dsLane` in the driving direction of the lane and to the left of it. A RelativeRoadPosition is `ds` along the road and `dt` beside the lateral position of the entity.", "quantifier": "all road networks, entities, distances, lane counts and offsets", "why_tests_cant": "all networks and all combinations of lane, heading and traffic rule", "anchors": ["EnvironmentSimulator/Modules/RoadManager/RoadManager.cpp: Position::EvaluateRelation"]}
{"id": "C161", "title": "Positions relative to an entity", "statement": "A RelativeObjectPosition is at the place with the given coordinates in the frame of the reference entity, a RelativeWorldPosition at the given offset from it in the axes of the world; without dz it is on the road. Relative angles add to those of the entity (for lane and road positions to the driving direction of the lane or road), absolute angles are the orientation.", "quantifier": "all entities, offsets, orientations and roads", "why_tests_cant": "all real angles and offsets", "anchors": ["EnvironmentSimulator/Modules/RoadManager/RoadManager.cpp: Position::EvaluateRelation", "EnvironmentSimulator/Modules/ScenarioEngine/OSCTypeDefs/OSCPosition.cpp: OSCPositionRelativeObject"]}
{"id": "C162", "title": "Orientation of positions", "statement": "A position set with world coordinates and absolute angles has this orientation; with angles relative to the road it is the orientation of the road followed by the relative rotation; angles of both kinds are each what was asked for. A LanePosition is oriented in the driving direction of its lane, turned by the relative angles.", "quantifier": "all orientations, roads and modes", "why_tests_cant": "all real angles", "anchors": ["EnvironmentSimulator/Modules/RoadManager/RoadManager.cpp: Position::SetInertiaPosMode", "EnvironmentSimulator/Modules/RoadManager/RoadManager.cpp: Position::EvaluateHPR", "EnvironmentSimulator/Modules/ScenarioEngine/OSCTypeDefs/OSCPosition.cpp: OSCPositionLane"]}
{"id": "C163", "title": "Persistent position modes", "statement": "Setting the mode of a position for SET or UPDATE operations replaces each component (z, heading, pitch, roll, route) that is named, by the default if the default is named, and leaves the other components and the other kind of operation; a position set with mode 0 uses the current modes; setting the modes for all operations does the same for both.", "quantifier": "all modes given as bit patterns and all previous modes", "why_tests_cant": "all bit patterns", "anchors": ["EnvironmentSimulator/Modules/RoadManager/RoadManager.cpp: Position::SetMode", "EnvironmentSimulator/Modules/RoadManager/RoadManager.cpp: Position::SetInertiaPosMode"]}
{"id": "C164", "title": "Route positions in scenarios", "statement": "A RoutePosition is at the given distance along the route, in the given lane with the given offset or at the given t, heading in the driving direction of the lane, turned by the relative orientation; the order of the elements, all of which the schema allows, makes no difference.", "quantifier": "all element orders, lanes, offsets, orientations and traffic rules", "why_tests_cant": "all combinations", "anchors": ["EnvironmentSimulator/Modules/ScenarioEngine/SourceFiles/ScenarioReader.cpp: ScenarioReader::parseOSCPosition", "EnvironmentSimulator/Modules/ScenarioEngine/OSCTypeDefs/OSCPosition.cpp: OSCPositionRoute", "EnvironmentSimulator/Modules/RoadManager/RoadManager.cpp: Position::SetRouteLanePosition"]}
{"id": "C165", "title": "World positions under the offset of the road network", "statement": "If the header of the road network has an offset, world positions of the scenario are moved along with the roads: distances, bearings and angles to roads and the height over them are those of the files.", "quantifier": "all offsets, world positions and roads", "why_tests_cant": "all real offsets and angles", "anchors": ["EnvironmentSimulator/Modules/ScenarioEngine/SourceFiles/ScenarioReader.cpp: ScenarioReader::parseOSCPosition", "EnvironmentSimulator/Modules/RoadManager/RoadManager.cpp: OpenDrive::LoadOpenDriveFile"]}
{"id": "C166", "title": "Lateral distance beside the reference entity", "statement": "A lateral distance action in the entity coordinate system brings the entity onto the line parallel to the reference entity at the requested distance on the requested side: without limits in one step, with a limit of the acceleration at unchanged speed, facing the way it goes, turning no faster than the limit allows, and near the line going with the reference entity; an entity on the line stays on it. In the road coordinate system without limits the distance is reached in one step. An action that is not continuous ends when the distance is reached. All sides and truth values of the schema are accepted.", "quantifier": "all entities, distances, widths, speeds, limits and time steps, any number of steps", "why_tests_cant": "real-valued states, any number of steps", "anchors": ["EnvironmentSimulator/Modules/ScenarioEngine/OSCTypeDefs/OSCPrivateAction.cpp: LatDistanceAction::Step", "EnvironmentSimulator/Modules/ScenarioEngine/SourceFiles/ScenarioReader.cpp: ScenarioReader::parseOSCPrivateAction"]}
{"id": "C167", "title": "One running action per entity and control domain", "statement": "At no time do two actions that need the same control of an entity (along the road, across it, or the same kind of light) run together for that entity, if one of them belongs to an event: starting an event ends the running actions of the same entity that compete with its own, and it leaves all others running. Every action of an event read from a file is subject to this, and each kind of action is assigned the controls it uses.", "quantifier": "all storyboards, entities, oracles for triggers and action progress, all executions of any length with injected actions", "why_tests_cant": "unbounded executions and interleavings of events", "anchors": ["EnvironmentSimulator/Modules/ScenarioEngine/SourceFiles/Storyboard.cpp: Event::Start", "EnvironmentSimulator/Modules/ScenarioEngine/SourceFiles/ScenarioReader.cpp: ScenarioReader::parseOSCManeuver", "EnvironmentSimulator/Modules/ScenarioEngine/OSCTypeDefs/OSCPrivateAction.hpp: LatDistanceAction"]}
{"id": "C168", "title": "Overriding driver controls", "statement": "An override action with values for throttle, brake, clutch, parking brake, steering wheel and gear is reported to the user exactly as written: percentages limited to [0, 1], brake forces to at least 0, wheel angles to \u00b12\u03c0, gears r, n, p, d as -1, 0, 1, 2, limits of rate and torque or -1 if absent. Controls not named keep their earlier state, the last value for a control counts, and without any override all controls are reported as not overridden. An action that overrides a pedal, a brake or the gear competes for the longitudinal control, one that overrides the wheel for the lateral one. Both spellings of truth values are accepted.", "quantifier": "all lists of controls, values, versions, and sequences of actions", "why_tests_cant": "unbounded sequences, real values", "anchors": ["EnvironmentSimulator/Modules/ScenarioEngine/OSCTypeDefs/OSCPrivateAction.cpp: OverrideControlAction::Start", "EnvironmentSimulator/Modules/ScenarioEngine/OSCTypeDefs/OSCPrivateAction.cpp: OverrideControlAction::AddOverrideStatus", "EnvironmentSimulator/Modules/ScenarioEngine/SourceFiles/ScenarioReader.cpp: ScenarioReader::parseOSCPrivateAction", "EnvironmentSimulator/Libraries/esminiLib/esminiLib.cpp: SE_GetOverrideActionStatus"]}
{"id": "C169", "title": "The text log is complete", "statement": "Every message of a level up to the configured one and of a module that is not filtered out appears exactly once and in order on the console, in the log file, in the buffer and at each callback, after the version text, and nothing else appears; outputs that are disabled get nothing. With `--log_append` nothing that has been logged is ever lost; a log file that is not empty starts with the version text. The path of the log is completed as documented: a directory gets the default file name, a name is used in the current directory, a missing directory is refused. A message given to the library is logged as it is.", "quantifier": "all sequences of messages, options, file systems and uses of the log", "why_tests_cant": "unbounded sequences; all paths and texts", "anchors": ["EnvironmentSimulator/Modules/CommonMini/logger.cpp: TxtLogger::Log", "EnvironmentSimulator/Modules/CommonMini/logger.cpp: ValidateAndCreateFilePath", "EnvironmentSimulator/Modules/CommonMini/logger.cpp: TxtLogger::SetLogFilePath", "EnvironmentSimulator/Libraries/esminiLib/esminiLib.cpp: SE_LogMessage"]}
{"id": "C170", "title": "Catalog references", "statement": "A catalog reference yields the first element of the name asked for in the catalog file that the search gives: current directory, user paths, then each registered directory in order (from the current directory, from the scenario, among the delivered catalogs). The result depends only on the files and the registered directories, not on references made before. A name that is not found ends the program. A catalog file named in the scenario is the one used. The entity made has the kind of the element, and each ObjectController gives its own controller.", "quantifier": "all file systems, directories, sequences of registrations and references, names", "why_tests_cant": "the results depend on caches, the working directory and the order of references; unbounded sequences", "anchors": ["EnvironmentSimulator/Modules/ScenarioEngine/SourceFiles/ScenarioReader.cpp: ScenarioReader::LoadCatalog", "EnvironmentSimulator/Modules/ScenarioEngine/SourceFiles/ScenarioReader.cpp: ScenarioReader::ResolveCatalogReference", "EnvironmentSimulator/Modules/ScenarioEngine/SourceFiles/ScenarioReader.cpp: ScenarioReader::RegisterCatalogDirectory", "EnvironmentSimulator/Modules/ScenarioEngine/SourceFiles/Catalogs.hpp: Catalogs::FindCatalogByName"]}
{"id": "C171", "title": "Speed limit of a road", "statement": "The speed limit at a position is the speed stated by the OpenDRIVE type element that applies there (the last starting at or before, of equal starts the last in the file), converted exactly to m/s from km/h, mph or m/s. Where none is stated it is 120 km/h on sides with several driving lanes and 60 km/h otherwise; it is always positive. The road type reported is that of the same element. Keyboard driving keeps to the limit times its factor, the off-road follower to 120 % of it. The unit reported by the library is that of the first speed in the file, m/s if that has no unit, undefined if there is none.", "quantifier": "all roads, type elements, lane sections, positions and lanes", "why_tests_cant": "all lists of elements in any order", "anchors": ["EnvironmentSimulator/Modules/RoadManager/RoadManager.cpp: Position::GetSpeedLimit, Road::GetSpeedByS, Road::GetRoadTypeByS, OpenDrive::LoadOpenDriveFile", "EnvironmentSimulator/Libraries/esminiLib/esminiLib.cpp: SE_GetSpeedUnit", "EnvironmentSimulator/Modules/Controllers/ControllerInteractive.cpp: ControllerInteractive::Step"]}
{"id": "C172", "title": "Points and dashes of road marks", "statement": "The OSI points of a road mark line follow the mark definition whatever the shape of the road. A broken line has a dash every length + space metres from its start, for every start before the end of the mark (next mark or end of the lane section), each as long as stated, the last one cut at the end of the mark; a line without space is one dash up to the end of the mark; an explicit line is drawn once over its length. The points of a dash start at its start, ascend and end within 2 micrometres of its end; two neighbours either satisfy the tolerance (tangents, slope, longest distance for the local unevenness) or are less than 20 cm apart, and all but the last two are at least 10 cm apart. The computation ends. The last point of every dash is marked as the end of a line.", "quantifier": "all shapes of road (arbitrary outcomes of the geometric judgements), lane sections, mark ends, lengths and spaces, explicit or repeated lines", "why_tests_cant": "every sequence of outcomes of the adaptive search, and its termination, for all real lengths", "anchors": ["EnvironmentSimulator/Modules/RoadManager/RoadManager.cpp: OpenDrive::SetRoadMarkOSIPoints, OpenDrive::CheckAndAddOSIPoint, GetMaxSegmentLen"]}
{"id": "C173", "title": "Botts' dots", "statement": "A line of Botts' dots has a dot at its start and after every space up to the end of the mark, and no other; computing them ends.", "quantifier": "all starts, spaces and ends of the mark", "why_tests_cant": "unbounded number of dots; termination", "anchors": ["EnvironmentSimulator/Modules/RoadManager/RoadManager.cpp: OpenDrive::SetRoadMarkOSIPoints, OpenDrive::LoadOpenDriveFile"]}
{"id": "C174", "title": "Closest point of a trajectory", "statement": "The point of a polyline (trajectory or trail of a ghost) found for a given position lies on the polyline, and no other point of it is closer than by a micrometre per segment. When the search starts at a given segment and the distances fall up to one segment and rise after it, it finds that segment.", "quantifier": "all polylines with distinct vertices, all positions, all start indices", "why_tests_cant": "all geometries and numbers of vertices; optimality over the continuum of points", "anchors": ["EnvironmentSimulator/Modules/RoadManager/RoadManager.cpp: PolyLineBase::FindClosestPoint, PolyLineBase::EvaluateSegmentByLocalS"]}
{"id": "C175", "title": "Orientation along a polyline", "statement": "With interpolation at corners the angle (heading, pitch or roll) along a polyline does not jump from one segment to the next, is that of the segment further than 2 m (or half its length) from its ends, and reaches that of the last vertex at the end. With interpolation over segments it turns evenly and the shorter way from one vertex to the next.", "quantifier": "all angles and segment lengths, any value of the constant for pi", "why_tests_cant": "continuity at every corner for all real lengths and angles, wrapping at the full turn", "anchors": ["EnvironmentSimulator/Modules/RoadManager/RoadManager.cpp: PolyLineBase::EvaluateSegmentByLocalS"]}
{"id": "C176", "title": "Texts of date and time", "statement": "The time of day of an environment is accepted exactly if the text is YYYY-MM-DDThh:mm:ss (leading zeros needed for the year only) with an optional fraction of one to three digits and an optional time zone, and the day exists in the Gregorian calendar, from 1900 on. The seconds since midnight derived from an accepted text are those of the time in it, whatever the fraction and time zone.", "quantifier": "all texts", "why_tests_cant": "all texts of all lengths, accepted and rejected", "anchors": ["EnvironmentSimulator/Modules/CommonMini/CommonMini.cpp: IsValidDateTimeFormat, GetSecondsSinceMidnight"]}
{"id": "C177", "title": "Time of day in the ground truth", "statement": "The ground truth reports the time of day of the environment; if it is animated, plus the simulation time passed since the environment was set, as seconds since midnight (less than a day) and seconds since 1970.", "quantifier": "all times of day, all sequences of time stamps and changes of the environment", "why_tests_cant": "sequences of any length, the state kept between reports", "anchors": ["EnvironmentSimulator/Modules/ScenarioEngine/SourceFiles/OSIReporter.cpp: OSIReporter::UpdateEnvironmentTimeOfDay"]}
{"id": "C178", "title": "Driving with the arrow keys", "statement": "Under the interactive controller, after every step the speed of the entity is at most the speed limit of the road times the factor configured (110 or 60 km/h by the number of lanes if the road has none) and at most its own maximal speed, whatever keys are pressed. The up and down keys accelerate and brake it by its maximal acceleration and deceleration, braking ends in a stop. Steering moves it by its speed times the time step with wheels turned by at most 60 degrees. With the longitudinal domain only it follows its road; with the lateral domain only its speed is left to others. A key acts as long as it is held, and on activation the entity stays aligned to its road.", "quantifier": "all sequences of key events and steps, all time steps, speed limits, numbers of lanes and active domains", "why_tests_cant": "sequences of any length with the state of vehicle and keys kept between steps", "anchors": ["EnvironmentSimulator/Modules/Controllers/ControllerInteractive.cpp: ControllerInteractive::Step, Activate, ReportKeyEvent", "EnvironmentSimulator/Modules/Controllers/Controller.cpp: Controller::Activate, AlignToRoadHeading"]}
{"id": "C179", "title": "Choice at junctions", "statement": "Where a road ends at a junction, an entity moves to a connecting road which the junction has for its lane, and fails to move if there is none. On a valid route it takes one leading to the road to which the route leaves the junction, if its lane has one, preferably the one which is part of the route. Otherwise, with a direction selected, it takes one whose heading out of the junction is closest to the driving direction turned by the angle selected, whatever the random numbers are.", "quantifier": "all junctions, connections, lanes, routes, headings, angles and random numbers", "why_tests_cant": "arbitrary networks and routes, with the choice hidden in the state of the position and in random numbers", "anchors": ["EnvironmentSimulator/Modules/RoadManager/RoadManager.cpp: Position::MoveToConnectingRoad (junction part)", "EnvironmentSimulator/Modules/RoadManager/RoadManager.cpp: Route::GetRoadAtOtherEndOfIncomingRoad, Junction::GetRoadAtOtherEndOfConnectingRoad"]}
{"id": "C180", "title": "Free space distance in the plane", "statement": "The free space distance of two objects is the distance of their bounding boxes: no point of the one is closer to a point of the other, and two points are that far apart; it is 0 if they have a point in common, and not 0 if there is a gap of more than a millionth along a side of a box. It is the same from either object. The free space distance of an object to a point outside its box is the distance to the closest point of the box, and the longitudinal and lateral parts are how far ahead and to the left of that closest point it is, as seen from the object. A point in the box, up to a millionth, is at distance 0.", "quantifier": "all positions, headings, boxes and points", "why_tests_cant": "continuous space of relative placements, with the closest points on any combination of corners and sides", "anchors": ["EnvironmentSimulator/Modules/ScenarioEngine/SourceFiles/Entities.cpp: Object::FreeSpaceDistance, Object::FreeSpaceDistancePoint, Object::PointCollision"]}
{"id": "C181", "title": "Free space distance along the road", "statement": "For two objects on the road which do not collide, the free space distance along (across) the road is the gap between the road coordinates of their corners, positive if the target is ahead (to the left), negative if it is behind (to the right), and 0 if they are beside each other; the same for an object and a point. There is no distance without a target, if a corner cannot be reached, or in other coordinate systems than road and lane.", "quantifier": "all road coordinates of the corners, coordinate systems and outcomes of the search for a way", "why_tests_cant": "all relative placements of four corners each, including objects standing across the road", "anchors": ["EnvironmentSimulator/Modules/ScenarioEngine/SourceFiles/Entities.cpp: Object::FreeSpaceDistanceObjectRoadLane, Object::FreeSpaceDistancePointRoadLane"]}
{"id": "C182", "title": "Free space distance of a vehicle with trailers to a point", "statement": "The free space distance of a vehicle with trailers to a point is measured from the vehicle of the train closest to the point: positive if the point is ahead of that vehicle, negative if it is behind, or its lateral (longitudinal) part in entity coordinates. In road and lane coordinates it is the smallest lateral (longitudinal) distance from a vehicle of the train; vehicles from which the point cannot be measured do not count, and there is no distance if none is left, nor for other kinds of distances and coordinate systems. It is the same whichever vehicle of the train is asked.", "quantifier": "all trains of up to 100 vehicles, all distances of the single vehicles below 1e10", "why_tests_cant": "trains of any length with any combination of measurable and unmeasurable vehicles", "anchors": ["EnvironmentSimulator/Modules/ScenarioEngine/SourceFiles/Entities.cpp: Object::Distance (to a point)"]}
{"id": "C183", "title": "Visibility actions", "statement": "After a visibility action an object, with the vehicles coupled to it, is visible for graphics, traffic and sensors exactly as the action says, as reported by the mask in SE_GetObjectState, and no other object is changed. The viewer then draws it exactly if it is visible for graphics, transparent exactly if not visible for sensors, and object sensors see it exactly if it is visible for sensors. In a scenario file only false and False hide; missing attributes show. Ghosts are never visible for sensors, and for nothing if ghosts are hidden by option; otherwise nothing else about them changes.", "quantifier": "all objects, couplings, masks, flags, attribute texts", "why_tests_cant": "any number of objects with any couplings and previous masks", "anchors": ["EnvironmentSimulator/Modules/ScenarioEngine/OSCTypeDefs/OSCPrivateAction.cpp: VisibilityAction::Start", "EnvironmentSimulator/Modules/ViewerBase/viewer.cpp: VisibilityCallback", "EnvironmentSimulator/Modules/ScenarioEngine/SourceFiles/ScenarioReader.cpp: parseOSCPrivateAction"]}
{"id": "C184", "title": "Teleport actions", "statement": "A teleport action puts an object where its target is, resolved with the route of the object if it has one. Speed, velocity, settings and route stay; the place on the route is looked up anew, an object on a trajectory goes on from the place on it given by the action, trailers are aligned to the new place, and the rear axle is put the reference point offset behind along the heading. Objects that are towed or controlled in override mode stay as they are. A ghost told to restart after the start of the simulation is put where its ego vehicle is, with its speed, and trail and events are reset.", "quantifier": "all objects, targets and ways to resolve them, all times", "why_tests_cant": "all combinations of control, coupling, route, trajectory and ghost settings, with real coordinates", "anchors": ["EnvironmentSimulator/Modules/ScenarioEngine/OSCTypeDefs/OSCPrivateAction.cpp: TeleportAction::Start", "EnvironmentSimulator/Modules/RoadManager/RoadManager.cpp: Position::TeleportTo, Position::CopyLocation, Position::CopyRoute", "EnvironmentSimulator/Modules/ScenarioEngine/SourceFiles/Entities.cpp: Vehicle::AlignRearAxlePosition"]}
{"id": "C185", "title": "Place of a point along a road segment", "statement": "When the road of a world position is searched, a position beside a straight segment of a road is on the segment if it is between the perpendiculars at its ends, and its place along it is its projection; beyond an end it is off by the distance to that end along the road. With other normals at the ends, the way between them is divided in the ratio of the distances to the normals, and the height of the road at the place lies between those of the ends. No position is on two consecutive segments, and each between the outer normals of two consecutive segments is on one of them.", "quantifier": "all positions, segments and unit normals", "why_tests_cant": "continuous space of positions and segments, points on boundaries", "anchors": ["EnvironmentSimulator/Modules/CommonMini/CommonMini.cpp: IsPointWithinSectorBetweenTwoLines, DistanceFromPointToLine2D", "EnvironmentSimulator/Modules/RoadManager/RoadManager.cpp: Position::XYZ2TrackPos (segment test)"]}
{"id": "C186", "title": "Offroad follower", "statement": "A vehicle under the offroad follower steers to the side where the vehicle it follows is, straight on if that is straight ahead, and as hard as possible if it is behind; the wheels then turn to that side, up to the limit for the speed. It accelerates exactly if the distance exceeds the target distance by more than its speed exceeds that of the other, brakes in the opposite case, pedals and steering within the range of the vehicle model, and is never faster than 1.2 times the speed limit or its top speed.", "quantifier": "all places, headings, speeds, limits and target distances", "why_tests_cant": "continuous space of relative places and speeds", "anchors": ["EnvironmentSimulator/Modules/Controllers/ControllerOffroadFollower.cpp: ControllerOffroadFollower::Step"]}
