NOTES["C01"] = "Exact (iff) for the pool allocator; soundness for every allocator. Empty operands without carry raise (TypeError) in Python and are excluded by hypothesis."
NOTES["C10"] = "The property is false of the code: the clause list(literals) makes logarithmic_amo an exactly-one constraint. Refutation proved for every non-empty list, and the exact meaning proved as _partial."
PARTIAL.add("C10")
NOTES["C11"] = "For grids of at least two rows; c11_one_row proves the failure for one row. c11_balancer covers create_balancer with prevent_intersection and the longest underground; for the fixed ends see C76."
NOTES["C41"] = "The property is false of the code: no rotate operation updates the stored offsets. Refutation proved for every operation other than no_op and every intact machine layout; what does hold is proved as _partial."
PARTIAL.add("C41")
NOTES["C61"] = "The property is false of the code for bounds on y (the code compares x, and repeats an x test). Two refutations with witnesses; the part without y bounds is proved as _partial."
PARTIAL.add("C61")
NOTES["C19"] = "The property is false of the code: an unconnected splitter half may face the side of an underground end (refutation with a witness on a 2x4 grid). What holds, no leak into belts or aligned tiles, is proved as _partial."
PARTIAL.add("C19")
NOTES["C24"] = "Proved for grids at least two cells wide and high; false for a width or height of one (refutation with a witness)."
PARTIAL.add("C24")
NOTES["C26"] = "With a correct solver the loop reports every solution once per value of the important variables (c26_enumerates). No layout is lost: proved for every NO_WRAP grid. 'Exactly once' is false: a splitter half on the border may or may not use its outer end, so a layout can be enumerated twice (refutation). With wrapping, layouts can be lost (refutation)."
PARTIAL.add("C26")
NOTES["C58"] = "Exact (iff) for the conjunction of all basic constraints, with colours, on every grid and edge mode in which the non-wrapping sides are shut for undergrounds, as in the applications."
NOTES["C25"] = "Relative to a correct solver (hypothesis CorrectSolver, inhabited by exists_solver). With an external command the loop reports one solution only (c25_command_single)."
NOTES["C56"] = "Proved for every well-formed answer. Two limits are proved as well: an answer cut between value lines is accepted, and an empty first value line raises IndexError."
PARTIAL.add("C56")
NOTES["C57"] = "The native library is external: the theorems say what it is sent and what is read back, given that it behaves as the IPASIR interface says."
NOTES["C35"] = "For every iteration order of Python sets (parameter ord). The splitter count is m*2^(m-1) for size 2^m."
NOTES["C63"] = "A steady flow is a solution of the conservation equations of the splitters and belts, with exact halving (no belt capacity); the theorem quantifies over all of them."
NOTES["C48"] = "Exact meaning of the answers, and truthfulness for every upward closed relation."
NOTES["C50"] = "Both of the values and of the text of the file (json.dumps and json.loads are modelled). c50_missing, c50_first: members, or the whole file, that are missing read as nothing recorded."
NOTES["C51"] = "Termination of next_size for every store; optimality for truthful records of a relation that obeys what every balancer obeys (Plausible); termination of the task under a truthful solver. The area search only considers heights up to twice the minimum, as the code does."
NOTES["C53"] = "Between two awaits a single coroutine runs, so an event is one solver run that ends."
NOTES["C54"] = "The property is false of the code: the file is emptied before it is written. Every proper prefix of the text makes the next start fail (refutation for all stores and all crash points); the two harmless points are proved as _partial."
PARTIAL.add("C54")
NOTES["C65"] = "The property is false of the code: only stores of the directory are written (refutations). What holds is proved as _partial."
PARTIAL.add("C65")
NOTES["C67"] = "The exact meaning of each cell is proved, and c67_table says where it stands in the file: one table for each store with records, a row for each height and a column for each width up to the greatest recorded ones; c67_exported: the export does not fail. The cross only says that the cheapest belts do not suffice: the stronger reading is refuted."
PARTIAL.add("C67")
NOTES["C68"] = "Proved for files that are absent, empty, end with a newline or have the heading; otherwise false (refutation)."
PARTIAL.add("C68")
NOTES["C44"] = "For grids that are Encodable: splitters whole, inserter types that have an entity, no assembling machines (they export nothing), and no belt whose only feeder is head-on. The import gives back the bounding box of the tiles."
NOTES["C45"] = "For grids that do not wrap."
NOTES["C46"] = "unpack_blueprint_book works on a deep copy, so the argument is unchanged; the model is pure."
NOTES["C55"] = "The property is false of the code: a belt level given by name reaches code that expects the enumeration and raises AttributeError (refutation). What holds for levels is proved as _partial."
PARTIAL.add("C55")
NOTES["C70"] = "The property is false of the code (refutation: two belts facing each other). The exact condition for success is proved as _partial."
PARTIAL.add("C70")
NOTES["C72"] = "zlib and base64 are a parameter (Codec) with the hypothesis that decoding inverts encoding."
NOTES["C43"] = "Grids without cells cannot be drawn (np.vectorize raises ValueError), and inserters and assembling machines have no character: their text is rejected when read."
NOTES["C59"] = "Exact (iff) for every generator except prevent_belt_parallel_splitter, which rejects every described pattern but other layouts too (refutation; what it rejects exactly is the _partial theorem)."
PARTIAL.add("C59")
NOTES["C60"] = "Filling an empty span is proved to keep everything when no splitter half points at the span from the side; otherwise the filled layout breaks the rules (refutation)."
PARTIAL.add("C60")
NOTES["C27"] = "The cardinality clauses of the SAT library are a parameter, assumed to express the count. Sound and complete for the connections the solver counts (flow flags of the assignment). The layout that is printed can have one more connection, between halves of two adjacent splitters, that the assignment leaves out: refuted there (c27_adjacent_refuted); c27_connected_partial shows this is the only difference. The count of entering and leaving belts is read off the border for grids of at least 2x2."
PARTIAL.add("C27")
NOTES["C28"] = "Exact (iff) for every function in use. In belt_balancer.py the block can never be at the last position of its line (c28_last_row_refuted) and inputs that fill the whole line need not be belts; what the clauses say exactly is proved as _partial. The net-free version (c28_free) allows every position."
PARTIAL.add("C28")
NOTES["C29"] = "Also proved: in every steady flow of the layout, whatever enters, the outputs are equal to the n-th part of the sum of the inputs, and a steady flow exists for all inputs. Optimisations only add clauses (c30_main). The steady flow has exact halving and no belt capacity."
NOTES["C30"] = "Constants, conservation and balancing in both directions are proved for the connections the assignment chooses, and for the printed layout when no splitter half points into another splitter (c30_balances_apart). Otherwise the printed layout has connections the assignment leaves out, and a 2 to 4 balancer accepted by the whole program does not balance in the game (c30_game_refuted). Splitters with one connection are modelled as the game has them; flows have no belt capacity."
PARTIAL.add("C30")
NOTES["C31"] = "The cardinality clauses of the SAT library are a parameter, assumed to express the count. Also proved: with the two rows of splitters in front of and behind the layout (which are not part of it) every output gets the same share of the inputs in every steady flow, and there is one for all inputs. Height one is rejected and two has no solution."
NOTES["C33"] = "For every command line with --single-loop that starts the solver. SingleLoop also says that exactly one cell follows each cell."
NOTES["C34"] = "False of the code for lengths of one to three without --single-loop: the grid is then created with the default length of four (refutation). Proved with --single-loop, for zero and for four or more; without --single-loop never more than four."
PARTIAL.add("C34")
NOTES["C74"] = "Exact (iff) without --tile. With --tile it is false: a loop of three belts in a row is never found (refutation); which loops are found is proved exactly (c74_tile_partial)."
PARTIAL.add("C74")
NOTES["C75"] = "False of the code: with --no-parallel the program ends with a TypeError for every block with more than one cell or that wraps (refutation). What is left is c75_parallel_partial."
PARTIAL.add("C75")
NOTES["C62"] = "Proved: whenever a network is returned for a sound layout it is the one described (c62_network). That it succeeds on every such layout is false: an underground entrance in the top row can raise an AssertionError (c62_row_refuted) and an end of a splitter that faces an empty cell raises an AttributeError (c62_empty_refuted); these are the only errors, and without entrances in the top row it succeeds exactly if no end faces an empty cell. Python's recursion limit is not modelled."
PARTIAL.add("C62")
NOTES["C76"] = "The property is false of the code: setup_balancer_ends never uses the last row, and the comparison then forbids the first one, so with one row more than inputs no solution is left (refutation for every network and grid). Proved as _partial when there are as many inputs and outputs as rows."
PARTIAL.add("C76")
NOTES["C77"] = "Proved for the connections the solver counts (c77_flow, for every network) and for the printed layout if no splitter is directly in front of another one (c77_balances_partial). The condition is not needed if all splitters of the network have two outputs, or all have two inputs (c77_flow_used, c77_balances_used); this covers all but two of the networks that come with the program (c77_shipped_partial). Without any condition it is false: a printed layout of a balancer gives one output three times as much as the other (c77_adjacent_refuted). c77_benes: the networks that network.py creates are balancers in the sense used here. Flows are steady, without belt capacity."
PARTIAL.add("C77")
NOTES["C78"] = "c78_only is the converse. The cardinality library is a parameter, assumed to return clauses whenever the count is possible."
NOTES["C79"] = "c79_exact is an iff between the clauses and Spec/BalancerMain.lean; c79_sound also covers --break-symmetry (see C11, C76). The cardinality library is a parameter. Reading files and command line, and the loop around the solver (C29-C31), are not part of it. The positions EndsPlaced allows are those of the code, including the last-row gap recorded under C28."
NOTES["C80"] = "The property is false of the code: a splitter that joins inputs directly to outputs must be in the second column and in the last but one, so unless the grid is three columns wide none is found (c80_three_columns, for every such network; c80_lost_refuted, a concrete one). c80_edges_partial: where the splitters are."
PARTIAL.add("C80")
NOTES["C81"] = "c81_exact: both inclusions for every layout; c81_unsat: nothing printed iff there is no interchange; c81_sizes, c81_grid: accepted sizes and the geometry of the grid. The library is a parameter; soundness needs nothing of it. Reading the --partial file into rows and printing the tiles are the subject of C42 and C43."
NOTES["C82"] = "c82_routes: existence and uniqueness of the permutation. Each step follows the game's rule for which cell the items of a cell move to."
NOTES["C83"] = "c83_all: the enumeration of C25 over the clauses of the program; distinctness because without splitters the flags that are excluded are functions of the layout."
NOTES["C84"] = "c84_exact: the constraints without the pattern exclusions; c84_main: the whole program; c84_idle and c84_unsat: idle splitters can be replaced by belts, so leaving them out loses no size. c84_fractions_refuted shows that the restriction to the unit matters: a balancer for two belts with three splitters, one third of an input flowing back, is not found. Equal numbers of inputs and outputs only; soundness for different numbers is C30."
NOTES["C85"] = "Files, caption, screen, quitting, moving and --export-all are proved for every history of events. Saving with a key is false of the code: a key pressed before all frames were shown saves another grid (c85_save_refuted); c85_save_partial proves it if nothing is pressed until then. What is drawn for a grid and how long it is are parameters here (see C87, C88). Events, files and frames are those of the model; the clock is not."
PARTIAL.add("C85")
NOTES["C86"] = "c86_distinct: without --colour-count, for every solution. With it the property is false: numbers that are not 0, 1, ... raise an IndexError although there are few of them (c86_count_refuted) and -1 gets the colour of the last number (c86_negative_refuted); c86_count_partial is the case of numbers below the count. Exact rational arithmetic instead of floats."
PARTIAL.add("C86")
NOTES["C87"] = "False with an assembling machine and no splitter (c87_loop_refuted: 16 frames, but the machine needs 32). Without machines: c87_loop_partial, and c87_shortest that no shorter loop would do."
PARTIAL.add("C87")
NOTES["C88"] = "A solution with an inserter is never drawn (c88_inserter_refuted); every other one is (c88_renders_partial). Sprites are identified by sheet, row and frame; which row of the sheet shows which belt is stated in Spec/Render.lean. Pixels and OpenGL are not modelled."
PARTIAL.add("C88")
NOTES["C89"] = "An index in a name is looked up in the tile and not in the value before it, so a name with an index always ends the program with an exception (c89_number_refuted); c89_value_partial is exact for names without indices. The size of a text and the text of a value are parameters."
PARTIAL.add("C89")
NOTES["C90"] = "c90_exact: the constraints without the excluded patterns; c90_main: the whole program without --partial. What such a layout does in the game is C31. The cardinality library is a parameter, assumed correct."
NOTES["C91"] = "c91_exact: the constraints without the excluded patterns; c91_main: the whole program without --partial. What such a layout does in the game is C30. Equal numbers of belts are C84."
NOTES["C92"] = "c92_free, c92_mix, c92_power, c92_balancer: what has been printed when the enumeration ends, and that it ends. That a layout is printed only once is part of c92_free and c92_power, and false for the others (c92_mix_once_refuted, c92_balancer_once_refuted)."
NOTES["C93"] = "c93_shipped, c93_layout. The finitely many files are read and checked by the kernel; that the check means what it should for all amounts and connections is certified_balancer, NetworkFlow.total and NetworkFlow.card. That a steady flow exists is not part of the claim. For the layouts, connections are those in the solution, as in c77_flow."
NOTES["C94"] = "c94_answers, c94_solve, c94_check, c94_enumerates, c94_released_once, c94_itersolve_releases, c94_solve_releases, c94_learnt. Partial: a closed object does not notice set_learn and set_terminate (c94_null_refuted: the library is called with a null pointer); c94_closed_partial is for all other methods. The library is a parameter whose answers may depend on all calls before; exists_native shows that a library meeting NativeLib.Correct exists."
PARTIAL.add("C94")
NOTES["C95"] = "c95_create, c95_flip, c95_flow_exists, c95_generated. Partial: the reversed network of a balancer need not balance if some splitter has a single input or output (c95_reversed_refuted: three belts to one); c95_reversed_partial is for networks of splitters with two inputs and two outputs, for any wiring and with loops, and all generated networks are such. For the shipped networks see C93."
PARTIAL.add("C95")
NOTES["C96"] = "c96_line_by_line, c96_blueprint, c96_blueprint_empty, c96_drawing, c96_rotate, c96_rotate_members, c96_rotate_back, c96_printed, c96_book, c96_book_error, c96_parse. zlib and base64 are a parameter (Codec) with decode after encode the identity and results without line ends."
NOTES["C97"] = "c97_answer and c97_layouts: the solver run of a size has exactly the balancers of that size as solutions (at least two columns and rows). c97_length and c97_area: the reported solution is a best one among the sizes considered, for every history of searches with one underground length, with nothing assumed about which sizes have balancers. c97_considered: without feedback of the input colour every balancer is of a considered size; c97_optimal_partial puts these together for the task of a network. False of the code: c97_larger_refuted (a size is called solvable because a smaller one is, but the edge-splitter rule makes some widths impossible: one splitter fits three columns and not four; so the relation is not closed upwards, c97_upwards_refuted), c97_room_refuted (with the input colour fed back a splitter may stand in the first column; the search counts it out and reports four columns where three suffice). Missing: several underground lengths in one database; ends of a single row."
PARTIAL.add("C97")
NOTES["C51"] += " C97 removes the assumption that what fits also fits into a larger grid, which c97_upwards_refuted shows to be false of some networks."
NOTES["C98"] = "c98_flow: amounts on the layout are a NetworkFlow through the network read; c98_ends: get_input_output_colours of the network counts the belts that bring items to splitters and take items from them; c98_divides: even division by the network is even division by the layout. For parse without --assume-valid-output; on which layouts parse succeeds is C62."
NOTES["C99"] = "c99_draws, c99_boxes, c99_belts: exact for splitters and the belts between them. c99_inputs_partial, c99_outputs_partial: exact unless the input (output) colour is given by exactly one splitter and taken by exactly one, which is impossible if it is not fed back. False of the code: c99_input_refuted (with feedback from one splitter to one splitter no input is shown), c99_counts_refuted (occurrences are kept in a set, so that one belt and two belts look the same). Placement by graphviz is not modelled."
PARTIAL.add("C99")
NOTES["C100"] = "c100_others proved for every command. c100_written_partial: the result is right unless flip is given one file twice. c100_failed_partial: exactly what a failing command leaves behind. False of the code, because argparse opens (and empties) the output file before anything is read: c100_same_refuted (network flip x x empties x and reports success, whatever x holds), c100_failed_refuted (a failing command empties its output file). Not modelled: links, directories, missing permissions, missing arguments, '-'."
PARTIAL.add("C100")
NOTES["C101"] = "False of the code: Direction is not an integer enumeration and read_tile passes the number in the text on, so that Belt.__post_init__ fails for every belt of either older format (c101_belt_refuted), and with it every layout that contains one (c101_layout_refuted). c101_others_partial: what is read, for cells with the member tile and for the older cells that are not belts (with a number in place of the direction). Inserters and assembling machines of the later format are modelled but there is no theorem about them."
PARTIAL.add("C101")
NOTES["C102"] = "c102_json: a printed layout is read as it is; c102_exact (without --break-symmetry) and c102_kept (always): effect on the solutions; c102_two_lines. c102_blueprint_partial: a blueprint is read as the layout cut to its bounding box and moved to the corner, as in C44. False of the code: c102_place_refuted (whenever the first column is free, the blueprint asks for something else than the printed layout). base64 and zlib are a Codec; that a final line end is ignored is an assumption (Codec.SkipsNewline)."
PARTIAL.add("C102")
NOTES["C103"] = "c103_pasted: proved in full, for every layout printed that is not empty. c103_balances_partial: on the condition of C77 that no splitter stands directly in front of another; not needed if all splitters of the network have two outputs, or all have two inputs (c103_balances_used). Without any condition the claim is false already for the printed layout (c77_adjacent_refuted). What the game places is taken to be what blueprint decode reads."
PARTIAL.add("C103")
NOTES["C104"] = "c104_realised, c104_same, c104_balancer, c104_divides: proved in full for every sound layout that parse reads (C62 says which), without --assume-valid-output; c104_sound: printed layouts are sound. c104_printed_partial: on the condition of C77 that no splitter stands directly in front of another; c104_printed_used: not needed if all splitters of the network have two inputs in use, or all two outputs. Without any condition the printed layout may not be a balancer (c77_adjacent_refuted), and parse may refuse a printed layout (C62)."
PARTIAL.add("C104")
NOTES["C105"] = "c105_line, c105_printed, c105_prints, c105_missing: for every template that create_template can make with the extra members given. c105_balancer_all, c105_balancer_first: belt_balancer without --break-symmetry. CompleteSolver: the solver answers for every variable up to the largest in the clauses, as the solvers used do; exists_complete shows that such a correct solver exists. c105_free, c105_mix, c105_power, c105_interchange: the other programs, with the layouts of C92 and C83. c105_stops: the lines before an answer that cannot be printed. That --all may print the same layout twice in belt_balancer and with different numbers of inputs and outputs is C92 (refuted there); these programs are only claimed to print each layout at least once."
NOTES["C106"] = "c106_pasted_partial: on the condition of C77 that no splitter stands directly in front of another; not needed if all splitters of the network have two outputs, or all have two inputs (c106_pasted_used), as in 62 of the 64 networks that come with the program (c106_shipped_partial). Without any condition the printed layout may not be a balancer (c77_adjacent_refuted). The codec (zlib, base64) is the abstract one of C103."
PARTIAL.add("C106")
NOTES["C107"] = "c107_cost and c107_pop_count: exact. c107_cheapest_partial: proved for numbers without gaps and at least two counted pairs; c107_any_partial for other numbers whose cost fits the digits of the sum. False of the code otherwise: an assertion fails without a counted pair (c107_nothing_refuted), with a single one that could be improved, because the loop then ends without a failed attempt and the cost is taken to be one too high (c107_single_refuted), and for large numbers (c107_large_refuted); each for all such networks."
PARTIAL.add("C107")
NOTES["C108"] = "c108_compares_partial: exactly which assignments are accepted. c108_survives_partial: the claim for layouts whose compared columns have nothing vertical or underground. False of the code otherwise: up and down and the two ends of undergrounds are not exchanged, so that a layout that is its own image is rejected (c108_self_refuted). No program calls the function."
PARTIAL.add("C108")
NOTES["C109"] = "c109_exact_partial: exactly what the clauses say. False of the code: the colour of the inputs is set in the last column instead of the first, so that inputs may have any colour (c109_colour_refuted), and there is no solution at all if an input and an output share a row (c109_same_row_refuted, for every grid and network). No program calls the function."
PARTIAL.add("C109")
NOTES["C110"] = "c110_free, c110_mix, c110_power, c110_interchange, from c110_lines for any layouts that obey the basic rules and whose belts fed from outside run straight."
NOTES["C111"] = "c111_terminates and c111_simplified for all networks and both values of allow_bottleneck; c111_flow: flows stay flows, for all networks. c111_exact_partial: the converse and the correspondence of inputs and outputs, if every wire has single ends and every splitter an output. False of the code otherwise: with a colour for several belts flows are added (c111_shared_refuted), and two splitters with a single belt between them raise an AssertionError (c111_fails_refuted). Flows with allow_bottleneck=True are not covered. No program calls the function."
PARTIAL.add("C111")
NOTES["C112"] = "c112_printed, c112_complete, c112_imperfect, over histories of whole programs (Recorded) and the text of the database. c112_answer ties right answers to a correct solver and the clauses of a run; c112_absolute: without feedback of the input colour, best among the considered sizes is best among all. With --export-blueprints the program fails whenever it has something to report (c112_export_refuted; C55). c112_lengths and c112_lengths_complete: with runs for several underground lengths on one database every line still is a balancer that is no worse than the others in the database; that it is a best one is not claimed then. A crash while the file is written is C54."
NOTES["C113"] = "c113_blueprints and c113_complete: the three programs in a row, over histories of whole programs as in C112; a way around c112_export_refuted. c113_even: layouts for any network that divides evenly, if all its splitters have two outputs, or all have two inputs, or no splitter of the layout stands directly in front of another (a splitter in front of another one may pass items to it on both of its sides, see C77). c113_shipped_partial: this covers 62 of the 64 networks that come with the program; what is missing are layouts for 1x5 and 5x1 with a splitter directly in front of another. The other parts of the property are proved in full."
PARTIAL.add("C113")
NOTES["C114"] = "c114_flow: any array of valid tiles. c114_pasted: any layout that obeys the rules of the game, wherever it comes from. c114_turned: the three programs in a row. c114_balancer: with the condition of C77, the turned layout and the pasted one are balancers."
NOTES["C115"] = "c115_tidy, c115_tidy_balancer: every network with one input and one output colour. c115_renumbered, c115_recoloured: whenever optimise_colours returns a network (C107 says when it does). c115_file: the file of network parse, for layouts in which some belt brings items to the splitters and some belt takes them away. c115_program: belt_balancer | network parse, where the condition on splitters is that of C77 (inputs of all in use, or outputs of all, or no two touch)."
NOTES["C116"] = "c116_free, c116_mix, c116_power, c116_interchange: the three pipelines, as texts. c116_free_balances, c116_power_balances, c116_interchange_routes: what the pasted copy does. For different numbers of inputs and outputs c116_mix gives the same amounts as the layout; what these are is C30."
NOTES["C117"] = "c117_layout: every layout the program looks for; c117_program: the two programs in a row. One input and one output are left out, where there need not be a splitter. Different numbers of inputs and outputs are not covered: there the program chooses which touching splitters count as connected (C91), and the parser reads all of them as connected."
NOTES["C118"] = "c118_file: the network read from the turned text against the flows of the layout that was not turned; c118_same: against the network read from the text that was not turned; c118_written: when a file is written; c118_free, c118_program: the balancers of belt_balancer_net_free; c118_balancer: those of belt_balancer, under the conditions of C115."
