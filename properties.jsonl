{"id": "C01", "title": "Adder clauses mean integer addition", "statement": "The clauses returned by add_numbers(a, b, out, allocator, carry_in, allow_overflow) are satisfied exactly by the truth assignments (up to the freshly allocated carry variables) in which the little-endian number read from out equals value(a) + value(b) + carry_in: exactly when out has one extra bit, exactly with no overflow permitted when out has the same width and allow_overflow is false, and modulo 2^n when allow_overflow is true. No other assignment of a, b, out is lost or admitted.", "quantifier": "every bit width, every choice of literals (including repeated and negated ones), every carry_in presence/absence, every truth assignment", "why_tests_cant": "2^(3n) assignments per width and unboundedly many widths; a wrong clause for one carry pattern at one width is invisible to sampled cases.", "anchors": ["factorio_sat/util.py: add_numbers", "factorio_sat/util.py: read_number"]}
{"id": "C02", "title": "Multi-operand sum clauses mean integer sum", "statement": "The clauses returned by sum_numbers(numbers, output, allocator) are satisfied (up to freshly allocated variables) exactly when value(output) is the sum of the operand values and no partial sum overflows the operand width; with allow_overflow the same holds modulo 2^n.", "quantifier": "every number of operands >= 2, every width, every truth assignment", "why_tests_cant": "The operand count and width are unbounded and the chaining of intermediate results is where an off-by-one (last operand, last output) hides.", "anchors": ["factorio_sat/util.py: sum_numbers"]}
{"id": "C03", "title": "Popcount clauses count true bits", "statement": "The clauses returned by get_popcount(bits, output, allocator) are satisfied (up to freshly allocated variables) exactly when value(output) is the number of true literals in bits, and the recursion never trips its own length assertion when called with a correctly sized output.", "quantifier": "every list of at least two literals, every truth assignment", "why_tests_cant": "The recursion splits odd/even lengths differently at every level; correctness at every length is an induction, not a finite check.", "anchors": ["factorio_sat/util.py: get_popcount", "factorio_sat/util.py: bin_length"]}
{"id": "C04", "title": "Increment clauses mean +1 modulo 2^n", "statement": "The clauses returned by increment_number(input, output) are satisfied exactly when value(output) = (value(input) + 1) mod 2^n.", "quantifier": "every width n > 0, every truth assignment", "why_tests_cant": "Unbounded width; carry chains of every length matter.", "anchors": ["factorio_sat/util.py: increment_number"]}
{"id": "C05", "title": "Maximum clauses mean a numeric upper bound", "statement": "The clauses returned by set_maximum(value, literals) are satisfied exactly when value(literals) <= value, for each value < 2^n; larger or negative values are rejected by the assertion rather than silently encoded.", "quantifier": "every width, every bound, every truth assignment", "why_tests_cant": "The clause set depends on the bit pattern of the bound; only a proof covers all patterns.", "anchors": ["factorio_sat/util.py: set_maximum"]}
{"id": "C06", "title": "Constant clauses pin exactly one value, and reading it back returns it", "statement": "set_number(value, literals) is satisfied exactly when the number read from the literals is value; set_not_number(value, literals) is the clause satisfied exactly when it is not; read_number(get_bits(value, n)) = value, and the signed reading is two's complement.", "quantifier": "every width, every value in range, every truth assignment", "why_tests_cant": "All widths and values.", "anchors": ["factorio_sat/util.py: set_number", "factorio_sat/util.py: set_not_number", "factorio_sat/util.py: read_number", "factorio_sat/util.py: get_bits"]}
{"id": "C07", "title": "Unordered pair clauses pin exactly the pair, in either order", "statement": "set_numbers(a, b, A, B) is satisfied exactly when (value(A), value(B)) is (a, b) or (b, a); set_numbers_equal(A, B) is satisfied exactly when the numbers are equal, also for different lengths when that is allowed.", "quantifier": "every width, every pair of values, every truth assignment", "why_tests_cant": "The correlated/anti-correlated bit logic has a different clause set for each pair of values.", "anchors": ["factorio_sat/util.py: set_numbers", "factorio_sat/util.py: set_numbers_equal"]}
{"id": "C08", "title": "Negation clauses mean two's complement negation", "statement": "The clauses returned by invert_number(input, output, allocator) are satisfied (up to freshly allocated variables) exactly when the signed value of output is minus the signed value of input, which is only possible when input is not the most negative number.", "quantifier": "every width, every truth assignment", "why_tests_cant": "Unbounded width and the single excluded value.", "anchors": ["factorio_sat/util.py: invert_number"]}
{"id": "C09", "title": "At-most-one and exactly-one encodings", "statement": "quadratic_amo and heule_amo (any cutoff >= 3) are satisfied, up to freshly allocated variables, exactly when at most one literal is true; quadratic_one and heule_one exactly when exactly one is true.", "quantifier": "every list length, every cutoff, every truth assignment", "why_tests_cant": "Unbounded list length and a recursive splitting with auxiliary variables.", "anchors": ["factorio_sat/cardinality.py: quadratic_amo, heule_amo, quadratic_one, heule_one"]}
{"id": "C10", "title": "Logarithmic at-most-one admits the all-false assignment", "statement": "logarithmic_amo(literals, allocator), like the other AMO encodings, is satisfied (up to fresh variables) exactly when at most one literal is true.", "quantifier": "every list length, every truth assignment", "why_tests_cant": "Needs all assignments; the failing one (all false) is easily omitted from tests.", "anchors": ["factorio_sat/cardinality.py: logarithmic_amo, logarithmic_one"]}
{"id": "C11", "title": "Symmetry breaking keeps a representative of every mirror pair", "statement": "break_symmetry(left, right) is satisfied (up to fresh variables) exactly when left is lexicographically at most right, and therefore break_vertical_symmetry rejects no layout together with its vertical mirror image: whenever an assignment is rejected, its mirror is accepted. On every grid of at least two rows (for one row the function fails its assertion), a solution of the basic constraints, or of a balancer without fixed ends, remains or its mirror image does.", "quantifier": "every grid size, every network, every assignment of the tile variables", "why_tests_cant": "Lossless pruning is a statement about all layouts of all sizes.", "anchors": ["factorio_sat/util.py: break_symmetry", "factorio_sat/optimisations.py: break_vertical_symmetry"]}
{"id": "C12", "title": "Conditional clauses only bite under the condition", "statement": "implies(condition, consequences) is satisfied exactly when either some condition literal is false or all consequences are satisfied; literals_same/literals_different/set_all_true/set_all_false/invert_components have their named meaning.", "quantifier": "every condition list, every clause list, every assignment", "why_tests_cant": "Ranges over all clause lists.", "anchors": ["factorio_sat/util.py: implies, literals_same, literals_different, set_all_true, set_all_false, invert_components"]}
{"id": "C13", "title": "Templates allocate fresh, disjoint variables and read back what was assigned", "statement": "Instantiating any (nested) template draws exactly variable_count new variables from the pool, no two leaves of one instance and no two instances share a variable, and parsing an instance under an assignment returns the value described by that assignment (boolean, little-endian number, index of the first true bit, list of true indices).", "quantifier": "every template tree, every array shape, every pool state, every assignment", "why_tests_cant": "Template trees nest arbitrarily.", "anchors": ["factorio_sat/template.py: BoolTemplate, ArrayTemplate, OneHotTemplate, ManyHotTemplate, NumberTemplate, CompositeTemplate, BaseGrid"]}
{"id": "C14", "title": "Offset lookup respects edge mode", "statement": "get_tile_instance_offset(x, y, dx, dy) returns the tile at the offset position when it is inside the grid; outside, it returns None on a NO_WRAP axis and the tile at the position modulo the size on a WRAP axis, independently per axis; it never fails.", "quantifier": "every grid size, position, offset (any integer) and edge mode pair", "why_tests_cant": "Unbounded integers, both axes.", "anchors": ["factorio_sat/template.py: BaseGrid.get_tile_instance_offset"]}
{"id": "C15", "title": "Every satisfying assignment decodes to a well-formed tile in every cell", "statement": "For every assignment satisfying the clauses created by Grid(...), decoding any cell succeeds (no assertion, no exception) and yields a tile whose kind and directions agree with the assignment: belts have an input and an output and never output back to the side they were fed from, undergrounds have one direction, splitters one direction.", "quantifier": "every grid size, every edge mode, every satisfying assignment, every cell", "why_tests_cant": "The solver may return any satisfying assignment.", "anchors": ["factorio_sat/solver.py: Grid.__init__, Grid.read_tile", "factorio_sat/tile.py: Belt.__post_init__"]}
{"id": "C16", "title": "Pinning a tile pins exactly that tile", "statement": "After set_tile(x, y, t), the satisfying assignments are exactly the previously satisfying ones whose decoded cell (x, y) is t (a filler tile decodes as empty).", "quantifier": "every grid, every cell, every tile, every assignment", "why_tests_cant": "Ranges over all satisfying assignments.", "anchors": ["factorio_sat/solver.py: Grid.set_tile, Grid.read_tile"]}
{"id": "C17", "title": "Splitter halves are always paired", "statement": "In every decoded layout of a NO_WRAP or WRAP grid, a splitter head facing d at p has the tail half of a splitter facing d at the neighbour in direction d.next, and conversely every tail has a head, so halves are in bijection; on a NO_WRAP grid no splitter sticks out of the grid.", "quantifier": "every grid size and edge mode, every satisfying assignment", "why_tests_cant": "All layouts.", "anchors": ["factorio_sat/solver.py: Grid.__init__"]}
{"id": "C18", "title": "Belts never dangle or collide", "statement": "After prevent_intersection, in every decoded layout an output of a belt or underground exit into a neighbouring cell of the grid is received by a belt, underground entrance or splitter fed from that direction, and a belt or underground entrance fed from inside the grid is fed by a tile that outputs in that direction; so no two tiles feed the same tile and no tile outputs into another tile's side.", "quantifier": "every grid size and edge mode, every satisfying assignment, every pair of neighbours", "why_tests_cant": "All layouts.", "anchors": ["factorio_sat/solver.py: Grid.prevent_intersection"]}
{"id": "C19", "title": "Unconnected splitter outputs do not leak into neighbouring tiles", "statement": "After prevent_intersection, if a splitter half has no output in the assignment then the tile in front of it cannot accept items from it under the game's rules (side-loading a belt or an underground belt, or feeding it from behind).", "quantifier": "every grid, every satisfying assignment", "why_tests_cant": "All layouts; the missed case is one specific tile kind.", "anchors": ["factorio_sat/solver.py: Grid.prevent_intersection"]}
{"id": "C20", "title": "Every underground entrance is connected to exactly one exit", "statement": "After prevent_bad_undergrounding (and blocking undergrounds at the edges on a NO_WRAP grid), every underground entrance facing d has an underground exit facing d straight ahead with at least one cell between them, no other underground of the same axis in between, and conversely for every exit.", "quantifier": "every grid size and edge mode, every satisfying assignment", "why_tests_cant": "Underground runs have unbounded length.", "anchors": ["factorio_sat/solver.py: Grid.prevent_bad_undergrounding, Grid.block_underground_through_edges"]}
{"id": "C21", "title": "Maximum underground length is respected", "statement": "After enforce_maximum_underground_length with limit L, the number of cells strictly between an underground entrance and its exit is at most L in every decoded layout; and the constraint excludes nothing else. With an infinite limit no clause is added.", "quantifier": "every grid size, every limit, every satisfying assignment", "why_tests_cant": "Unbounded limits and sizes.", "anchors": ["factorio_sat/solver.py: Grid.enforce_maximum_underground_length"]}
{"id": "C22", "title": "Colour is constant along a belt line", "statement": "After prevent_bad_colouring, colours of connected non-splitter tiles agree: each tile and the tile it outputs to, and each underground entrance and its matching exit, carry the same colour, hence the colour is constant along every path that does not pass through a splitter.", "quantifier": "every grid size, number of colours, satisfying assignment, path length", "why_tests_cant": "Paths have unbounded length.", "anchors": ["factorio_sat/solver.py: Grid.transport_quantity, Grid.prevent_bad_colouring"]}
{"id": "C23", "title": "Blocked edges are not crossed", "statement": "After block_belts_through_edges / block_underground_through_edges with any edge selection, no decoded tile moves items across a selected edge, above or below ground; unselected edges are unaffected.", "quantifier": "every grid size, every subset of edges, every satisfying assignment", "why_tests_cant": "All layouts.", "anchors": ["factorio_sat/solver.py: Grid.block_belts_through_edges, Grid.block_underground_through_edges"]}
{"id": "C24", "title": "Input/output markers mark exactly the boundary crossings", "statement": "is_input (is_output) of a cell is true exactly when the cell takes items from (delivers items to) a position outside the grid.", "quantifier": "every grid size, every satisfying assignment, every cell", "why_tests_cant": "Degenerate sizes (width or height 1) are where the case analysis breaks.", "anchors": ["factorio_sat/solver.py: Grid.__init__ (Inputs and outputs)"]}
{"id": "C25", "title": "Solution enumeration is complete and duplicate-free", "statement": "For any solver that answers correctly, itersolve yields satisfying assignments that pairwise differ on the important variables, stops after finitely many, and when it stops every satisfying assignment agrees with a yielded one on the important variables.", "quantifier": "every clause set, every set of important variables, every (correct, nondeterministic) solver behaviour", "why_tests_cant": "Ranges over all solver behaviours and histories of blocking clauses.", "anchors": ["factorio_sat/template.py: BaseGrid.itersolve"]}
{"id": "C26", "title": "Enumeration ignoring colour does not lose layouts", "statement": "On a NO_WRAP grid two satisfying assignments that agree on the variables Grid.itersolve(ignore_colour=True) treats as important decode to the same tiles, so enumerating with --all yields every distinct layout exactly once.", "quantifier": "every grid size, every pair of satisfying assignments", "why_tests_cant": "Splitter head/tail flags are not among the important variables; that they are determined is an induction along runs of splitters.", "anchors": ["factorio_sat/solver.py: Grid.itersolve", "factorio_sat/template.py: BaseGrid.itersolve"]}
{"id": "C27", "title": "A generated balancer realises the requested splitter network", "statement": "In every satisfying assignment of create_balancer(network, ...) the splitters in the layout can be labelled with network nodes so that each node type is used exactly as often as it occurs in the network, every splitter's two incoming belts carry the node's input colours and its outgoing belts the node's output colours (None meaning unconnected), and the numbers of belts entering and leaving the grid are the network's input and output counts with the right colours.", "quantifier": "every network, grid size and satisfying assignment (given correct cardinality clauses from the SAT library)", "why_tests_cant": "All networks, all layouts.", "anchors": ["factorio_sat/belt_balancer.py: create_balancer", "factorio_sat/network.py: get_input_output_colours, deduplicate_network"]}
{"id": "C28", "title": "Balancer ends may be placed at every offset", "statement": "setup_balancer_ends forces the inputs (outputs) to be one contiguous block of straight-in belts on the first (last) column and allows every vertical position of that block.", "quantifier": "every grid height, every input/output count, every offset", "why_tests_cant": "The missing offset is the last one for heights greater than the count.", "anchors": ["factorio_sat/belt_balancer.py: setup_balancer_input, setup_balancer_output, setup_balancer_ends", "factorio_sat/belt_balancer_net_free.py: setup_balancer_ends"]}
{"id": "C29", "title": "Net-free n-to-n balancers really balance", "statement": "In every satisfying assignment of create_n_to_n_balancer the flow numbers form an exact splitter flow: each splitter's two outputs both carry exactly half of the sum of its two inputs per input component, belts and undergrounds preserve flow, input row i carries full_flow of component i and nothing else, and each output row carries exactly full_flow/size of every component, which is an exact division.", "quantifier": "every size, grid and satisfying assignment", "why_tests_cant": "All sizes and layouts; exactness of the halving depends on carry bits.", "anchors": ["factorio_sat/belt_balancer_net_free.py: create_n_to_n_balancer, next_power_of_two, lcm"]}
{"id": "C30", "title": "Net-free n-to-m flow constants divide exactly and partial splitters conserve flow", "statement": "For create_n_to_m_balancer the per-belt input and output flows computed by integer division are exact (no remainder), forward and backward totals are conserved, never exceed the belt maximum, and splitters with one connected input (output) halve (add) flows exactly. The layout that is printed balances: whatever enters, each output belt carries the same share of the total, and whatever is taken out, each input belt gives the same share.", "quantifier": "every pair of counts, every grid and satisfying assignment", "why_tests_cant": "Unbounded counts; a remainder for one pair would silently unbalance.", "anchors": ["factorio_sat/belt_balancer_net_free.py: create_n_to_m_balancer, lcm, next_power_of_two"]}
{"id": "C31", "title": "Power-of-two balancers mix disjoint input sets", "statement": "In every satisfying assignment of the power-of-two create_balancer, treating a belt's colour as a set of input pairs, every splitter receives disjoint sets and emits their union on both outputs, a splitter of level i receives sets of size 2^i, each level has exactly height/2 splitters, and each adjacent output pair carries complementary sets. Hence, with a row of splitters in front of and behind the layout, every output gets the same share of the inputs.", "quantifier": "every power-of-two height, width, satisfying assignment", "why_tests_cant": "Unbounded height; set algebra on bits.", "anchors": ["factorio_sat/belt_balancer_net_free_power_of_2.py: create_balancer"]}
{"id": "C32", "title": "Interchange flow requirement is the true requirement", "statement": "flow_counts(h/2) lists, for each horizontal cut after an even number of rows of an interchange of height h, exactly the net number of belts of the lower colour that must cross upwards (equivalently of the upper colour downwards) to turn a half/half input into one-of-each output pairs.", "quantifier": "every even height", "why_tests_cant": "Closed form with abs and floor division, different for odd and even halves.", "anchors": ["factorio_sat/interchange.py: flow_counts, require_correct_transport_through_edges"]}
{"id": "C33", "title": "Single-loop blocks are a single loop", "statement": "In every satisfying assignment of the make_block --single-loop constraints, following belts and undergrounds from the top-left cell visits every cell of the grid exactly once before returning.", "quantifier": "every grid size, every satisfying assignment", "why_tests_cant": "Unbounded loop lengths; number wrap-around must be excluded.", "anchors": ["factorio_sat/make_block.py: ensure_loop_length, main"]}
{"id": "C34", "title": "make_block honours --underground-length", "statement": "In every block produced with --underground-length L no underground section is longer than L.", "quantifier": "every L, every mode of operation", "why_tests_cant": "Depends on the combination of options.", "anchors": ["factorio_sat/make_block.py: main"]}
{"id": "C35", "title": "Generated networks have the requested size", "statement": "create_benes_network(size) terminates for every size >= 2 and returns a network with exactly one input colour and one output colour, each of count size, all other colours balanced.", "quantifier": "every size >= 2 (odd sizes go through size+1)", "why_tests_cant": "Unbounded size; recursion mixes halving and rounding up.", "anchors": ["factorio_sat/network.py: create_benes_network, get_input_output_colours, remap_colours"]}
{"id": "C36", "title": "Network files round-trip", "statement": "open_network(save_network(n)) = n for every network whose colours are None or integers other than -1; comments and blank lines are ignored; a line with a number of fields other than four is rejected.", "quantifier": "every network, every file text", "why_tests_cant": "All texts.", "anchors": ["factorio_sat/network.py: open_network, save_network"]}
{"id": "C37", "title": "Flipping a network swaps inputs and outputs", "statement": "flip_network is an involution and exchanges the input and output colour and counts of a network. calculate_network_size counts the colours that only come in and those that only go out, and flipping exchanges the two numbers.", "quantifier": "every network", "why_tests_cant": "All networks.", "anchors": ["factorio_sat/network.py: flip_network, get_input_output_colours"]}
{"id": "C38", "title": "Colour normalisation is a faithful renaming", "statement": "fix_colours renames colours injectively onto 0..k-1 with exterior input colours first and exterior output colours last, leaves None alone, and so preserves the network up to renaming. The number of colours, which calculate_total_colours counts, stays the same.", "quantifier": "every network, every iteration order of the sets", "why_tests_cant": "Set iteration order is unspecified; all orders must work.", "anchors": ["factorio_sat/network.py: fix_colours, remap_colours"]}
{"id": "C39", "title": "Deduplication keeps the multiset of splitters", "statement": "deduplicate_network counts each splitter up to swapping its two inputs or its two outputs: total count equals the network length, and two nodes get the same key exactly when they agree up to such swaps; input/output colours and counts are unchanged.", "quantifier": "every network", "why_tests_cant": "All networks.", "anchors": ["factorio_sat/network.py: deduplicate_network"]}
{"id": "C40", "title": "Layout transformations form the symmetry group of the rectangle and act correctly on connections", "statement": "rotate/flip operations on a grid compose as geometry says (four quarter turns are the identity, half turn is two quarter turns, flips are involutions, flip_y is a rotation-conjugated flip_x), and a transformed layout has a connection, underground pair or splitter pairing between two cells exactly when the original has it between the original cells.", "quantifier": "every grid size, every layout", "why_tests_cant": "All layouts; head/tail swap under reflection.", "anchors": ["factorio_sat/rotate.py: Operation", "factorio_sat/tile.py: rotate_90, flip_x, flip_y"]}
{"id": "C41", "title": "Rotating a layout with assembling machines keeps the machines intact", "statement": "After any rotate operation an assembling machine's cells still form a machine (each cell's stored offset equals its position relative to the machine's top-left cell).", "quantifier": "every layout with machines, every operation", "why_tests_cant": "Depends on tile kinds not exercised by balancers.", "anchors": ["factorio_sat/rotate.py: main", "factorio_sat/tile.py: AssemblingMachine"]}
{"id": "C42", "title": "Tiles round-trip through their JSON form", "statement": "BaseTile.read(t.write()) = t for every tile, and read rejects what write never produces (reversed belts, unknown types).", "quantifier": "every tile", "why_tests_cant": "All tiles of all kinds.", "anchors": ["factorio_sat/tile.py: write, read", "factorio_sat/blueprint.py: read_tile, write_tile"]}
{"id": "C43", "title": "Text grids round-trip", "statement": "stringifier.decode(encode(g)) = g for every rectangular grid of belts, undergrounds, splitters, fillers and empty tiles; encoding is injective; a grid with an inserter or assembling machine encodes to a text that decode rejects.", "quantifier": "every grid size and content", "why_tests_cant": "All grids.", "anchors": ["factorio_sat/stringifier.py: MAPPING, encode, decode"]}
{"id": "C44", "title": "Blueprints round-trip", "statement": "import_blueprint(make_blueprint(tiles)) is tiles cropped to its non-empty bounding box, with fillers dropped and each belt's input direction recomputed from its neighbours, for every layout whose splitter halves are paired, at every belt level.", "quantifier": "every grid size and content", "why_tests_cant": "Negative offsets, splitter half positions and row/column order.", "anchors": ["factorio_sat/blueprint.py: make_blueprint, import_blueprint, resolve_belt_input_directions", "factorio_sat/direction.py: from_factorio, factorio_direction"]}
{"id": "C45", "title": "Recomputed belt input directions agree with the solver's", "statement": "For every solver layout satisfying prevent_intersection, resolve_belt_input_directions restores exactly the input direction the solver chose for every belt that is fed from inside the grid.", "quantifier": "every layout", "why_tests_cant": "All layouts; splitters with unconnected outputs look connected to the resolver.", "anchors": ["factorio_sat/blueprint.py: resolve_belt_input_directions", "factorio_sat/solver.py: prevent_intersection"]}
{"id": "C46", "title": "Blueprint books keep blueprints in order", "statement": "unpack_book(pack_book(bs)) returns the blueprints bs in order, each with only its index set to its position; packing does not modify its argument.", "quantifier": "every list of blueprints", "why_tests_cant": "All lists.", "anchors": ["factorio_sat/blueprint_book.py: pack_book, unpack_book"]}
{"id": "C47", "title": "Game version numbers round-trip", "statement": "decode_factorio_version(encode_factorio_version(a,b,c,d)) = (a,b,c,d) for all 16-bit components, and conversely for all 64-bit values; out-of-range values are rejected.", "quantifier": "all 2^64 values", "why_tests_cant": "2^64 values.", "anchors": ["factorio_sat/blueprint.py: encode_factorio_version, decode_factorio_version"]}
{"id": "C48", "title": "Existence answers are consequences of what was recorded", "statement": "does_balancer_exist(size) returns True only if a recorded solved size is componentwise at most size, False only if a recorded unsolvable size is componentwise at least size, and if the records are true of an upward-closed feasibility relation the answer is never wrong; None exactly when nothing recorded decides.", "quantifier": "every record history, every queried size", "why_tests_cant": "All histories.", "anchors": ["factorio_sat/calculate_optimal.py: NetworkSolutionStore.does_balancer_exist, add_solution"]}
{"id": "C49", "title": "Cleaning the store changes no answer", "statement": "clean() never changes the answer of does_balancer_exist for any size (for stores without contradictory records) and never removes a solution.", "quantifier": "every store, every queried size", "why_tests_cant": "All histories and dictionary orders.", "anchors": ["factorio_sat/calculate_optimal.py: NetworkSolutionStore.clean"]}
{"id": "C50", "title": "The result database round-trips", "statement": "from_json(to_json(store)) restores exist and solutions exactly, including dictionary order.", "quantifier": "every store", "why_tests_cant": "All stores.", "anchors": ["factorio_sat/calculate_optimal.py: to_json, from_json"]}
{"id": "C51", "title": "The search for an optimum terminates and is never declared finished early", "statement": "next_size always returns; a returned size is undecided by the store; when it returns None every size with smaller objective value in the searched family is known not to exist, and best_current_solution then returns a solution of minimal objective value (given truthful, upward-closed records).", "quantifier": "every store, network and underground length, both objectives", "why_tests_cant": "Unbounded search loops.", "anchors": ["factorio_sat/calculate_optimal.py: LengthObjective, AreaObjective, best_current_solution"]}
{"id": "C52", "title": "factors enumerates every factor pair once", "statement": "factors(n) yields exactly the pairs (a, b) with a*b = n, each once.", "quantifier": "every n >= 1", "why_tests_cant": "All n; perfect squares.", "anchors": ["factorio_sat/calculate_optimal.py: factors"]}
{"id": "C53", "title": "Concurrent optimisation is schedule independent", "statement": "For any interleaving of the asyncio optimisation tasks, each network's store evolves exactly as if its task ran alone, and every save writes the current state of all stores.", "quantifier": "every interleaving of any number of tasks", "why_tests_cant": "Unboundedly many schedules.", "anchors": ["factorio_sat/calculate_optimal.py: main (optimise, save_progress)"]}
{"id": "C54", "title": "A crash while saving never loses previously saved results", "statement": "At every crash point during save_progress, the database file that a restart reads contains at least the previously saved results.", "quantifier": "every crash point, every pair of old and new contents", "why_tests_cant": "Crash points cannot be enumerated by tests of the happy path.", "anchors": ["factorio_sat/calculate_optimal.py: main (save_progress)"]}
{"id": "C55", "title": "Query export produces blueprints", "statement": "calculate_optimal query --export-blueprints prints a blueprint for every solved network.", "quantifier": "every database", "why_tests_cant": "Only exercised with a populated database.", "anchors": ["factorio_sat/calculate_optimal.py: main (encode_solution), get_belt_level", "factorio_sat/blueprint.py: make_blueprint"]}
{"id": "C56", "title": "External solver answers are read exactly", "statement": "run_command_solver returns exactly the literal list printed by a solver following the SAT competition output format, however the values are split over v lines and whatever comment lines are interspersed, None exactly on UNSATISFIABLE, and raises on any other status.", "quantifier": "every literal list, every splitting into lines, every interspersing of comments", "why_tests_cant": "Unbounded outputs.", "anchors": ["factorio_sat/template.py: run_command_solver"]}
{"id": "C57", "title": "IPASIR clause streams are faithful", "statement": "The zero-terminated literal stream sent to an IPASIR solver decodes to exactly the given clauses, the recorded variable set is exactly the set of variables used, and a model read back assigns each recorded variable once.", "quantifier": "every clause list of non-zero literals", "why_tests_cant": "All clause lists.", "anchors": ["factorio_sat/ipasir.py: add_clause, add_clauses, get_model"]}
{"id": "C58", "title": "UNSAT verdicts are trustworthy for the basic rules", "statement": "Every layout that obeys the basic rules (paired splitters, connected belts, paired undergrounds within the length limit) is represented by some satisfying assignment of the corresponding clauses, so UNSAT implies that no such layout exists.", "quantifier": "every grid size, every layout", "why_tests_cant": "Completeness over all layouts.", "anchors": ["factorio_sat/solver.py: Grid.__init__, prevent_intersection, prevent_bad_undergrounding, enforce_maximum_underground_length"]}
{"id": "C59", "title": "Optimisation clauses forbid exactly the described pattern", "statement": "Each generic optimisation (small loops, empty underground spans, mergeable undergrounds, glued splitters, expandable undergrounds, belt hooks, semicircles, zigzags, belts parallel to splitters) rejects an assignment exactly when the decoded layout contains the pattern it describes somewhere in the considered region, and nothing else.", "quantifier": "every grid size, every assignment", "why_tests_cant": "Position and direction ranges; boundary rows and columns.", "anchors": ["factorio_sat/optimisations.py"]}
{"id": "C60", "title": "Removing an empty underground span keeps the layout valid", "statement": "A layout rejected by prevent_empty_along_underground because all cells between an entrance and its exit are empty can be rewritten with surface belts into a layout that still satisfies the basic rules, has the same boundary connections and uses no such span, so the pruning loses no balancer.", "quantifier": "every layout, every span", "why_tests_cant": "All layouts.", "anchors": ["factorio_sat/optimisations.py: prevent_empty_along_underground"]}
{"id": "C61", "title": "Block iteration honours its bounds", "statement": "iterate_tile_blocks(..., min_x, min_y, max_x, max_y) visits exactly the blocks whose anchor and far corner lie within the bounds. iterate_tile_lines(direction, length) yields one line for every cell, whose tiles lie one after another in the direction.", "quantifier": "every grid, block size, directions and bounds", "why_tests_cant": "Mixed-up axes only show for particular bounds.", "anchors": ["factorio_sat/template.py: BaseGrid.iterate_tile_blocks"]}
{"id": "C62", "title": "Parsing a layout recovers its network", "statement": "parse_network of a layout of belts, underground belts and splitters that obeys the connection rules returns a network with exactly one node per splitter, whose inputs are coloured None if nothing is connected, 0 if they come from no splitter and i + 1 if they come, along any belt line, from the i-th splitter, and whose outputs are coloured None if not connected, i + 1 for the splitter's own number if they lead to a splitter and one more than the number of splitters if they lead to none; it succeeds on every such layout.", "quantifier": "every layout, every set iteration order, with and without counting edge splitters as connected", "why_tests_cant": "All layouts and belt lines of any length; the backward underground search has a row-dependent bound.", "anchors": ["factorio_sat/network.py: parse_network"]}
{"id": "C63", "title": "A generated network balances its belts", "statement": "In every steady flow through the network returned by create_benes_network(size) - each splitter gives half of what it receives to each output, and what leaves splitters or enters from outside under a colour is what arrives at splitters or leaves outside under that colour, however the belts of one colour are connected - there are size inputs and size outputs and every output carries the mean of the inputs.", "quantifier": "every size >= 2, every connection of the belts of each colour, every input amounts, every set iteration order", "why_tests_cant": "All sizes, all flows; a rational-number argument over an inductively built network with feedback.", "anchors": ["factorio_sat/network.py: create_benes_network"]}
{"id": "C64", "title": "Tidying a network keeps the network", "statement": "tidy_network(network) returns the same network with the colours renamed one to one (None kept), the splitters reordered and the two connections of each splitter side in ascending order; the splitters come in the order of leaving outputs minus entering inputs, then of the first input; the input and output counts stay.", "quantifier": "every network, every set iteration order", "why_tests_cant": "All networks.", "anchors": ["factorio_sat/network.py: tidy_network"]}
{"id": "C65", "title": "Results of networks outside the directory survive a compute run", "statement": "After calculate_optimal compute, the database still has the results of every network it had results for before, including networks whose file is not in the directory at the moment.", "quantifier": "every database, every directory, every history of solver runs", "why_tests_cant": "All histories and directories.", "anchors": ["factorio_sat/calculate_optimal.py: main (save_progress)"]}
{"id": "C66", "title": "The belt level of an export is the cheapest sufficient one", "statement": "get_belt_level(n) is the level of least reach whose reach is at least n, and the express level if none reaches that far.", "quantifier": "every underground length", "why_tests_cant": "All integers.", "anchors": ["factorio_sat/calculate_optimal.py: get_belt_level"]}
{"id": "C67", "title": "The exported table tells the truth", "statement": "A cell of the exported table shows the square of the cheapest belt level for which a balancer of that size is known, a cross only if no balancer of that size exists at any level, and a question mark only if nothing is known.", "quantifier": "every store with consistent records, every size", "why_tests_cant": "All record histories.", "anchors": ["factorio_sat/calculate_optimal.py: export_crosstable"]}
{"id": "C68", "title": "Exporting the table is idempotent and keeps the rest of the file", "statement": "export_crosstable keeps all lines before the heading, replaces everything after it, and exporting again without new results leaves the file as it is.", "quantifier": "every store list, every earlier file content", "why_tests_cant": "All file contents.", "anchors": ["factorio_sat/calculate_optimal.py: export_crosstable"]}
{"id": "C69", "title": "Tables and query results come in numeric order", "statement": "Stores are listed by number of inputs, then number of outputs (as numbers, not as text), names without numbers last, and none is lost or repeated.", "quantifier": "every list of stores", "why_tests_cant": "All names.", "anchors": ["factorio_sat/calculate_optimal.py: ordering_key, export_crosstable, main"]}
{"id": "C70", "title": "Every blueprint of supported entities can be imported", "statement": "import_blueprint succeeds on every blueprint of belts, undergrounds, splitters and inserters that do not overlap, and gives each belt the direction it is fed from.", "quantifier": "every blueprint", "why_tests_cant": "All arrangements of entities; a pair of belts facing each other is enough to fail.", "anchors": ["factorio_sat/blueprint.py: import_blueprint"]}
{"id": "C71", "title": "Exported blueprints list each entity once", "statement": "make_blueprint numbers the entities 1 to n without gaps, lists exactly one entity per belt, underground end, inserter and splitter (not per splitter half) with its position and direction, and keeps the label.", "quantifier": "every grid, every belt level", "why_tests_cant": "All grids.", "anchors": ["factorio_sat/blueprint.py: make_blueprint"]}
{"id": "C72", "title": "Blueprint strings read back and other versions are rejected", "statement": "decode_blueprint(encode_blueprint(x)) == x, encoded strings start with the format version 0, and a string with another version byte is rejected.", "quantifier": "every document, every codec whose decompression inverts its compression", "why_tests_cant": "All documents.", "anchors": ["factorio_sat/blueprint.py: encode_blueprint, decode_blueprint"]}
{"id": "C73", "title": "make_block finds every block that obeys the rules, and no other", "statement": "Without --single-loop, a layout can be produced by make_block exactly when its belts, undergrounds and edges obey the rules, it has no splitters, no empty cells unless --allow-empty is given, no loop of four belts, nothing going below empty cells only, and no undergrounds if their length is zero.", "quantifier": "every size, every combination of options, every layout", "why_tests_cant": "All layouts of all sizes; an UNSAT answer claims that none exists.", "anchors": ["factorio_sat/make_block.py: main"]}
{"id": "C74", "title": "make_block --single-loop finds every loop", "statement": "With --single-loop, a layout that obeys the rules and is one loop through all cells can be produced by make_block.", "quantifier": "every size, with and without --tile, every layout", "why_tests_cant": "All layouts of all sizes; an UNSAT answer claims that no loop exists.", "anchors": ["factorio_sat/make_block.py: main, ensure_loop_length"]}
{"id": "C75", "title": "make_block --no-parallel avoids parallel undergrounds", "statement": "With --no-parallel, make_block produces blocks in which no two undergrounds along the same axis lie side by side.", "quantifier": "every size, every combination of the other options", "why_tests_cant": "All blocks.", "anchors": ["factorio_sat/make_block.py: main, prevent_parallel"]}
{"id": "C76", "title": "--break-symmetry of belt_balancer keeps a representative of every mirror pair of balancers", "statement": "If belt_balancer finds a balancer for a network, a grid size and a choice of ends, then it finds one with --break-symmetry too: with the option every solution or its mirror image is still found.", "quantifier": "every network, every grid size, with and without --aligned and --use-ends", "why_tests_cant": "An option that loses solutions shows as UNSAT, which a test cannot tell from a size that has no balancer.", "anchors": ["factorio_sat/belt_balancer.py: main, setup_balancer_ends", "factorio_sat/optimisations.py: break_vertical_symmetry"]}
{"id": "C77", "title": "A printed balancer does in the game what its network does", "statement": "For every layout belt_balancer prints for a network, and whatever steady amounts enter it, the amounts on the belts entering and leaving are those of a steady flow through the network; so if the network is a balancer, all belts leaving the layout carry the same amount.", "quantifier": "every network, every grid size, every solution, all amounts entering", "why_tests_cant": "All solutions and all flows; the printed layout is checked by hand in the game at best.", "anchors": ["factorio_sat/belt_balancer.py: create_balancer, main", "factorio_sat/network.py"]}
{"id": "C78", "title": "belt_balancer starts the solver for every usable network", "statement": "create_balancer raises no exception for a network that has one input colour and one output colour, at most one missing connection per splitter and non-negative colours, on every grid with room for its splitters and its ends; and it does raise one if there is not one input colour and one output colour, if a splitter misses two connections, or if the grid is empty.", "quantifier": "every network, every grid size", "why_tests_cant": "All networks.", "anchors": ["factorio_sat/belt_balancer.py: create_balancer"]}
{"id": "C79", "title": "belt_balancer prints exactly the balancers that its options ask for", "statement": "Without --break-symmetry, a layout can be printed by belt_balancer for a network, a grid size, an underground length and any combination of the other options exactly when it obeys the rules of the game, its splitters and belts implement the network, its inputs and outputs are where the options put them, it contains the tiles of the partial layout, and it has none of the patterns that the options rule out. So an UNSAT answer means that there is no such balancer. With --break-symmetry everything printed still has these properties.", "quantifier": "every network, every grid of at least two rows and columns, every combination of options, every layout", "why_tests_cant": "All layouts of all sizes; an UNSAT answer claims that none exists.", "anchors": ["factorio_sat/belt_balancer.py: main, create_balancer, enforce_edge_splitters, set_nonempty_tiles, setup_balancer_ends, setup_balancer_ends_90, setup_balancer_ends_180", "factorio_sat/optimisations.py"]}
{"id": "C80", "title": "--fast and --edge-splitters of belt_balancer do not lose all balancers", "statement": "If belt_balancer finds a balancer for a network and a grid size, it also finds one with --fast or --edge-splitters; these only move the splitters at the inputs and outputs to the edges.", "quantifier": "every network, every grid size", "why_tests_cant": "An option that loses solutions shows as UNSAT, which a test cannot tell from a size that has no balancer.", "anchors": ["factorio_sat/belt_balancer.py: main, enforce_edge_splitters"]}
{"id": "C81", "title": "interchange prints exactly the interchanges that its options ask for", "statement": "For every size, underground length and choice of --alternating, --180 and --partial, and whatever the cardinality library returns as long as it is correct, the layouts that the interchange program can print are exactly the layouts that obey the rules of the game, contain no splitter, take a belt in every row on the left and put one out in every row on the right, colour the upper input rows 0 and the lower ones 1, mix the colours at the outputs as asked, and contain none of the detours the program excludes. In particular the constraints on the number of belts crossing each cut lose no layout. If it prints nothing there is none.", "quantifier": "all widths, heights, underground lengths, options, correct libraries and layouts", "why_tests_cant": "unit tests run a few sizes; whether an added pruning constraint removes a valid layout is a statement about all layouts", "anchors": ["factorio_sat/interchange.py:main", "factorio_sat/interchange.py:require_correct_transport_through_edges", "factorio_sat/interchange.py:prevent_passing", "factorio_sat/interchange.py:prevent_awkward_underground_entry", "factorio_sat/interchange.py:require_rotational_symmetry"]}
{"id": "C82", "title": "Every belt entering an interchange leaves it, mixed as asked", "statement": "In every layout that the interchange program can print, following the belt that enters in row y from cell to cell (through underground belts) ends at the right edge in exactly one row, different rows end in different rows, and all rows are reached. With --alternating the upper half of the inputs leaves in the even rows and the lower half in the odd rows, otherwise rows 2i and 2i+1 get one belt from each half.", "quantifier": "all widths, heights, options and printed layouts", "why_tests_cant": "following a belt through a layout of any size is an unbounded walk; tests look at single solutions", "anchors": ["factorio_sat/interchange.py:main"]}
{"id": "C83", "title": "interchange --all prints every interchange exactly once", "statement": "With a correct incremental solver, interchange --all ends, every layout it prints is an interchange of the requested kind, every interchange of the requested kind is printed, and no layout is printed twice.", "quantifier": "all widths, heights, options, correct libraries and correct solvers", "why_tests_cant": "completeness and uniqueness of an enumeration range over all layouts and all answers of the solver", "anchors": ["factorio_sat/interchange.py:main", "factorio_sat/solver.py:Grid.itersolve"]}
{"id": "C84", "title": "belt_balancer_net_free finds exactly the balancers whose shares are whole in its unit", "statement": "For equally many inputs and outputs n, the layouts that belt_balancer_net_free can print are exactly those that obey the rules of the game, hold the inputs and outputs as blocks of straight belts at the two sides, connect all four ends of every splitter, have no splitter whose halves get the same, contain none of the patterns the program excludes, and in which the share of every input on every belt is a whole multiple of one part in lcm(2^ceil(log2 n), n), with every output getting one n-th of every input. If it finds nothing before the patterns are excluded, there is no such layout even with idle splitters. Balancers that need other fractions are not found.", "quantifier": "all widths, heights, underground lengths, numbers of belts and layouts", "why_tests_cant": "An UNSAT answer claims that no balancer of the size exists; a test cannot tell a lost solution from a size that has none.", "anchors": ["factorio_sat/belt_balancer_net_free.py: main, create_n_to_n_balancer, create_n_to_m_balancer", "factorio_sat/optimisations.py"]}
{"id": "C85", "title": "The viewer exports the whole animation of the grid named in each file", "statement": "Whatever keys are pressed and in whatever order, render shows the frame that is due of the grid whose number is in the caption, moves through the lines of standard input in order and wraps around, and every file it writes holds all the frames of the grid whose number is in its name. With --export-all it ends by itself after writing exactly one file for each grid, in order. Saving with a key saves the grid that was on the screen.", "quantifier": "all inputs, all histories of events and all numbers of frames", "why_tests_cant": "the export is spread over many rounds of an event loop and depends on what is pressed between them", "anchors": ["factorio_sat/render.py: main, get_solution"]}
{"id": "C86", "title": "Colours in the picture stand for colour numbers", "statement": "In a picture with --show-colour, things with the same colour number have the same colour, things with different numbers have different colours, and things without a number are grey. With --colour-count a number has the same colour in every solution, and every solution that has no more colours than that is drawn.", "quantifier": "all grids of any size, all sets of colour numbers and all counts", "why_tests_cant": "the palette depends on the set of all numbers in a grid and on arithmetic with hues; tests look at a few numbers", "anchors": ["factorio_sat/render.py: create_palette, render_solution"]}
{"id": "C87", "title": "The animation of a solution is the shortest seamless loop", "statement": "After the number of frames that an exported animation of a solution has, its picture is the first one again, and no smaller number of frames has that property.", "quantifier": "all grids of any size and all frame numbers", "why_tests_cant": "needs the equality of all frames of all grids with different periods", "anchors": ["factorio_sat/render.py: get_animation_length, render_tile, render_solution"]}
{"id": "C88", "title": "The picture shows the solution", "statement": "Every tile of a solution is drawn at its own place with the sprites of its kind and direction from the game's sprite sheets, and nothing is drawn for empty cells, so two solutions with the same picture are the same. The pieces are drawn in an order in which upper layers cover lower ones. With --show-underground exactly the cells below which an underground belt runs get a line along it. Every valid solution is drawn.", "quantifier": "all grids of any size, all frames and options", "why_tests_cant": "a statement about every cell of every grid; comparing pictures of examples cannot show that two different grids never look the same", "anchors": ["factorio_sat/render.py: render_tile, render_underground, render_solution, render_line"]}
{"id": "C89", "title": "--show-raw writes the named value into its tile", "statement": "For every name given with --show-raw, the viewer writes into each tile the value to which the name leads, where the pieces of a dotted name are keys and indices. The text of a tile stays inside that tile, and its lines lie below each other without overlap.", "quantifier": "all grids, names, values and sizes of text", "why_tests_cant": "ranges over all paths into arbitrary nested values and all sizes of text", "anchors": ["factorio_sat/render.py: render_attributes"]}
{"id": "C90", "title": "belt_balancer_net_free_power_of_2 finds exactly the balancers that mix pairs of inputs in stages", "statement": "For every width, every power of two, every underground length and every correct cardinality library, the layouts that belt_balancer_net_free_power_of_2 can print are exactly those that obey the rules of the game, have belts to the right in the first and last columns, connect all four ends of every splitter, contain none of the patterns the program excludes, and mix the inputs in stages: each splitter of stage i joins two disjoint sets of 2^i pairs of inputs, every stage has as many splitters as there are pairs, and each pair of outputs shares all inputs between its two rows.", "quantifier": "all widths, powers of two, underground lengths, correct libraries and layouts", "why_tests_cant": "an UNSAT answer claims that no such layout of that width exists; a test cannot tell a lost solution from a width that has none", "anchors": ["factorio_sat/belt_balancer_net_free_power_of_2.py: create_balancer, main", "factorio_sat/optimisations.py"]}
{"id": "C91", "title": "belt_balancer_net_free finds exactly the balancers for different numbers of inputs and outputs whose shares are whole in its unit", "statement": "For different numbers of inputs m and outputs n, the layouts that belt_balancer_net_free can print are exactly those that obey the rules of the game, hold the inputs and outputs as blocks of straight belts at the two sides (nested when aligned), and admit connections between the splitters with at most one end of each splitter unconnected, over which the share of every input on every belt, and what every output draws through every belt, are whole numbers of units, with lcm(2^ceil(log2 min(m, n)), 2, m, n) units to a full belt, no two of which reach the highest bit on one belt, every output getting one n-th of every input and every input giving one m-th of every output, no splitter with four connected ends getting the same on both halves; and that contain none of the patterns the program excludes.", "quantifier": "all widths, heights, underground lengths, different numbers of inputs and outputs and layouts", "why_tests_cant": "an UNSAT answer claims that no such balancer of the size exists; a test cannot tell a lost solution from a size that has none", "anchors": ["factorio_sat/belt_balancer_net_free.py: main, create_n_to_m_balancer", "factorio_sat/optimisations.py"]}
{"id": "C92", "title": "With --all the balancer programs print every balancer they look for, and then end; the net-free programs with equally many belts print none twice", "statement": "With a correct solver, --all ends, and then belt_balancer_net_free, belt_balancer_net_free_power_of_2 and belt_balancer (without --break-symmetry) have printed every layout that is a balancer in the sense of C84 and C91, C90 and C79 and has the tiles of the layout given with --partial, and nothing else. For equally many inputs and outputs, and in the program for powers of two, no layout is printed twice; otherwise a layout may be printed more than once, because two splitters that touch may be connected in different ways.", "quantifier": "all widths, heights, underground lengths, numbers of belts, networks, options, partial layouts and correct solvers", "why_tests_cant": "an enumeration that stops early or loses a layout looks like a complete one; only a proof over all solver answers shows that nothing is missing", "anchors": ["factorio_sat/belt_balancer_net_free.py: main", "factorio_sat/belt_balancer_net_free_power_of_2.py: main", "factorio_sat/belt_balancer.py: main", "factorio_sat/solver.py: Grid.itersolve"]}
{"id": "C93", "title": "Every network that comes with the program is a balancer with the number of belts its name says, forwards and reversed", "statement": "Each file in networks/ can be read and is a network with one input colour and one output colour, with as many inputs and outputs as its name MxN says. However the belts of each colour are connected, and whatever arrives at the M inputs, each of the N outputs carries exactly one N-th of all that arrives. The same holds for the reversed network with N inputs and M outputs. So a layout that the belt balancer program finds for one of these files has M inputs and N outputs and shares evenly, in terms of the connections in the solution.", "quantifier": "all files in networks/, all ways to connect the belts, all amounts that arrive, all layouts found for them", "why_tests_cant": "amounts are arbitrary numbers and the belts of a colour can be connected in any way, so trying inputs never settles it; a wrong network gives a layout that looks fine", "anchors": ["networks/", "factorio_sat/network.py: open_network, flip_network, get_input_output_colours, deduplicate_network", "factorio_sat/belt_balancer.py: create_balancer"]}
{"id": "C94", "title": "Solving through a shared library gives the library's answers, and its solver is released exactly once", "statement": "With a solver given as lib:..., solve returns a solution made from a model of the clauses if there is one and None if not, check says which, and itersolve yields what enumerating with a correct solver yields and ends when that ends. The same object can be used with further clauses and assumptions: solve says whether all clauses given so far and the literals assumed since the last solve can hold, and the model read afterwards makes them hold. However a run ends - no more solutions, nobody asks for more, an exception in the library's answer or in reading the solution - the library's solver is released exactly once and is not used afterwards. A closed object raises an exception for every method and does not call the library. The callback for learnt clauses gets the clause before the terminating zero.", "quantifier": "all libraries that follow the IPASIR interface, all sequences of method calls, all clauses, all numbers of solutions asked for, all points at which an exception ends the run", "why_tests_cant": "releasing twice or using a released solver corrupts memory only for some orders of calls; the library's answers may depend on everything called before", "anchors": ["factorio_sat/ipasir.py: IPASIRSolver", "factorio_sat/template.py: BaseGrid.check, BaseGrid.solve, BaseGrid.itersolve"]}
{"id": "C95", "title": "A reversed balancer balances, and network create and network flip write files of balancers", "statement": "network create writes a file for every size from two up, and the network in it has that many inputs and outputs and divides evenly. network flip writes a file for every network file; the network in it is the reversed one with inputs and outputs exchanged, flipping it gives the network back, and if the network divided evenly then so does the reversed one, however the belts of each colour are connected and whatever arrives. For whatever arrives at a network there is a steady flow.", "quantifier": "all sizes, all network files, all orders in which Python iterates over sets, all connections of the belts of a colour, all amounts that arrive", "why_tests_cant": "whether a reversed network balances depends on all wirings of belts with the same colour and on arbitrary amounts, and networks may contain loops", "anchors": ["factorio_sat/network.py: main, flip_network, create_benes_network, open_network, save_network"]}
{"id": "C96", "title": "The converting commands work line by line and undo each other", "statement": "blueprint encode and decode, rotate and stringifier encode print one result for every line of their input, in that order, until the input ends; the first line that cannot be converted ends them after all earlier results have been printed. blueprint encode followed by blueprint decode gives every exportable layout back, cut to what it contains; stringifier encode followed by stringifier decode gives every drawable layout back; rotate prints lines that stand for the turned layouts, moves the other members of each cell along, and turning printed lines there and back gives the same text to the character; blueprint_book pack followed by unpack gives all blueprint strings back in their order, pack prints nothing if one line is not a blueprint string; network parse writes a file that holds the network of the layout.", "quantifier": "all texts on standard input, any number of lines and with or without a line end after the last one, all layouts, all JSON spellings of a line and members beside the tile, all labels", "why_tests_cant": "the commands read arbitrary text, and losses show only for particular combinations of lines, members and tiles", "anchors": ["factorio_sat/blueprint.py: main, read_tile, write_tile", "factorio_sat/blueprint_book.py: main", "factorio_sat/rotate.py: main", "factorio_sat/stringifier.py: main", "factorio_sat/network.py: main"]}
{"id": "C97", "title": "The optimum search reports a best balancer", "statement": "For every size that it tries, calculate_optimal asks the solver for exactly the balancers of the network of that size that belt_balancer --fast --aligned would print, so that a size is recorded as solvable exactly if there is such a balancer. When the search of a network is over, the layout reported for an underground length is one of least height and then least width, or of least area among the heights considered, among all balancers of the network with that underground length. A size that the database calls solvable has a balancer.", "quantifier": "all networks, all sizes, all underground lengths, all sequences of earlier searches for either objective, all answers of a correct solver", "why_tests_cant": "whether a smaller balancer exists is decided by exhaustive search, and the pruning rules are right only if they never skip a size that has one", "anchors": ["factorio_sat/calculate_optimal.py: solve_balancer, next_size, does_exist, best_solution, compute", "factorio_sat/belt_balancer.py: create_balancer, setup_balancer_ends, enforce_edge_splitters", "factorio_sat/optimisations.py: apply_generic_optimisations, expand_underground", "factorio_sat/network.py: deduplicate_network"]}
{"id": "C98", "title": "A layout does what the network read from it does", "statement": "Let network parse read a network from a layout that obeys the rules of the game. Then whatever enters the layout, the amounts on the belts that bring items to its splitters and on those that take items from its splitters to the outside are those of a flow through the network. The network has as many inputs and outputs as there are such belts, and names their colours zero and one more than the number of splitters. If the network divides its inputs evenly, so does the layout.", "quantifier": "all sound layouts of any size, all orders in which the splitters are listed, all flows", "why_tests_cant": "a reader of the network relies on it for every amount on every belt of every layout, not for the few layouts that were tried", "anchors": ["factorio_sat/network.py: parse_network, get_input_output_colours", "factorio_sat/network.py: main (parse)"]}
{"id": "C99", "title": "The picture of a network shows its connections", "statement": "network render draws a picture of every network with inputs and outputs. The picture has one box for each splitter. It shows a belt of a colour from one splitter to another exactly if an output of the first and an input of the second have this colour, it shows a belt from outside to a splitter exactly if the splitter takes the input colour, and one from a splitter to the outside exactly if it gives the output colour. The number of belts can be read from it.", "quantifier": "all networks of any size, all orders in which Python goes through its sets", "why_tests_cant": "the picture is checked by eye for a few networks; that nothing is missing and nothing too much must hold for every network", "anchors": ["factorio_sat/network.py: plot, get_input_output_colours", "factorio_sat/network.py: main (render)"]}
{"id": "C100", "title": "The network commands write their output file only, and only with their result", "statement": "network create, network flip and network parse change no other file than the output file named on the command line. When they end normally, this file holds the text computed from the arguments and from the input as it was before the command. When they fail, all files are as before.", "quantifier": "all contents of all files, all arguments (including the same file as input and output), all texts on standard input", "why_tests_cant": "a test runs a command on fresh files; what happens to earlier contents depends on where it fails and on which files coincide", "anchors": ["factorio_sat/network.py: main", "argparse.FileType as used there"]}
{"id": "C101", "title": "Layouts written by older versions can be read", "statement": "A cell without the member 'tile', as older versions of the program wrote them, is read as the tile that it described: empty, a belt, an end of an underground belt, half a splitter, an inserter, a part of a machine. Cells with the member are read as before.", "quantifier": "every cell of either older format, with any further members, and every layout that contains such a cell", "why_tests_cant": "The members can come in any order and among others, in two formats with several ways to write a direction.", "anchors": ["factorio_sat/blueprint.py: read_tile", "factorio_sat/tile.py: Belt.__post_init__, Splitter, UndergroundBelt, AssemblingMachine", "factorio_sat/direction.py: Direction"]}
{"id": "C102", "title": "The file given with --partial", "statement": "belt_balancer --partial accepts a file with one layout, as a line of JSON or as a blueprint string. The layouts printed are exactly those printed without the option that have every non-empty tile of the given layout in its place. Both forms of a layout ask for the same. A file with more than one layout is refused.", "quantifier": "every network, size and combination of options, every layout that can be printed or exported, every file", "why_tests_cant": "The file is tried in two formats and becomes clauses; the effect is on the set of all solutions.", "anchors": ["factorio_sat/blueprint.py: convert_to_tiles", "factorio_sat/belt_balancer.py: set_nonempty_tiles, main"]}
{"id": "C103", "title": "The blueprint of a printed balancer is a balancer", "statement": "If a layout printed by belt_balancer is turned into a blueprint with blueprint encode, then what is placed has the tiles of the printed layout and no others (belts fed from outside run straight), items move on it exactly as on the printed layout, and if the network is a balancer then all belts that leave it carry the same, whatever is supplied at the inputs.", "quantifier": "every balancer network, size and combination of options, every solution, every label and belt level, every steady flow", "why_tests_cant": "It spans four programs; a blueprint does not contain where belts get their items from, which is found again from the neighbours, and positions are relative.", "anchors": ["factorio_sat/belt_balancer.py: main", "factorio_sat/blueprint.py: make_blueprint, encode_blueprint, decode_blueprint, import_blueprint, resolve_belt_input_directions, main"]}
{"id": "C104", "title": "The network read from a layout does exactly what the layout does", "statement": "If network parse reads a network from a layout, then the amounts that can flow in and out of a machine built from the network are exactly those that can flow in and out of the layout. So the network is a balancer, or divides evenly, exactly if the layout does; and the network read back from a layout that belt_balancer printed for a balancer is a balancer.", "quantifier": "every sound layout, every order in which the splitters are found, every flow through the network, every balancer network, size, combination of options and solution", "why_tests_cant": "The claim is about all real amounts on all layouts; that the network allows nothing that the layout does not is needed to conclude something about the network from the layout.", "anchors": ["factorio_sat/network.py: parse_network, main", "factorio_sat/belt_balancer.py: main"]}
{"id": "C105", "title": "What a program prints for a solution is the solution", "statement": "A line printed for an answer of the solver shows, cell by cell, exactly the tile that the answer describes and the value of every further member of the cell's template, and it reads back as that grid. The line is printed whenever the answer has all variables of the tiles; if one is missing the program ends with a KeyError and nothing else can go wrong. belt_balancer --all prints one line for each answer, all of them wanted layouts, every wanted layout among them, and then ends; without --all it prints nothing if there is no wanted layout and otherwise one line, of a wanted layout. The same holds of belt_balancer_net_free, belt_balancer_net_free_power_of_2 and interchange; for the latter two, and for the first with equally many inputs and outputs, no layout is printed twice. If an answer cannot be printed, the lines before it have been printed and the program ends with the error.", "quantifier": "every width and height, number of colours, set of extra members with distinct names, answer of the solver, network, combination of options without symmetry breaking, correct solver that answers for all variables", "why_tests_cant": "The text passes through the variable numbering, the reading of the answer and the JSON writer; the claim is about every template, size and answer, and for belt_balancer about the whole enumeration.", "anchors": ["factorio_sat/template.py: BaseGrid.parse_solution, FactorioGrid.parse_cell, CompositeTemplate.parse, ArrayTemplate.parse, OneHotTemplate.parse, ManyHotTemplate.parse, NumberTemplate.parse", "factorio_sat/solver.py: Grid.itersolve", "factorio_sat/belt_balancer.py: main", "factorio_sat/belt_balancer_net_free.py: main", "factorio_sat/belt_balancer_net_free_power_of_2.py: main", "factorio_sat/interchange.py: main"]}
{"id": "C106", "title": "A balancer printed by belt_balancer and piped into blueprint encode can be pasted and balances", "statement": "belt_balancer piped into blueprint encode prints nothing exactly if there is no layout, and otherwise one blueprint string. The string, pasted, places belts so that whatever is supplied at the inputs, all belts that leave the area carry the same amount.", "quantifier": "every balancer network, width and height of at least two, combination of options, correct solver that answers for all variables, label, belt level, amounts supplied at the inputs", "why_tests_cant": "The chain runs from the clauses through the solver's answer, the printed JSON, the reading of the JSON and the encoding to what the belts do; each link is an unbounded claim.", "anchors": ["factorio_sat/belt_balancer.py: main", "factorio_sat/blueprint.py: make_blueprint, encode_blueprint, main", "factorio_sat/template.py: BaseGrid.parse_solution"]}
{"id": "C107", "title": "optimise_colours finds a cheapest numbering of the colours", "statement": "calculate_cost is the number of binary digits in which the colours of the two inputs, or of the two outputs, of a splitter differ, summed over the pairs of which one belt goes from splitter to splitter. optimise_colours returns the same network with its colours renumbered one to one by 0, 1, 2, ..., and no other such numbering has a lower cost; it returns the network itself if it is already cheapest.", "quantifier": "every network with colours that are not negative, order in which Python visits a set, correct solver (whatever model it chooses)", "why_tests_cant": "The best numbering is a minimum over all permutations of the colours, found by a loop of solver calls over clauses with a popcount circuit; tests can compare a few networks with a few numberings only.", "anchors": ["factorio_sat/network.py: pop_count, calculate_cost, optimise_colours, remap_colours"]}
{"id": "C108", "title": "break_horisontal_symmetry keeps a layout or its reflection", "statement": "break_horisontal_symmetry(grid, min_x, max_x) compares the outer columns on the left with those on the right, entering with leaving. Of a layout and the layout reflected from left to right with its belts running backwards at least one is accepted, and columns outside the grid are reported.", "quantifier": "every grid, range of columns, assignment", "why_tests_cant": "A symmetry breaking constraint that is not about a symmetry silently loses layouts; only a proof about all layouts and their images can tell.", "anchors": ["factorio_sat/optimisations.py: break_horisontal_symmetry", "factorio_sat/util.py: break_symmetry"]}
{"id": "C109", "title": "setup_balancer_ends_with_offsets puts the ends of a balancer into the given rows", "statement": "setup_balancer_ends_with_offsets(grid, network, start_offset, end_offset) makes the first column belts to the right with the colour of the inputs in as many rows as the network has inputs, from start_offset on, and empty elsewhere; likewise the last column with the outputs. It fails if there is no room for them.", "quantifier": "every grid, network with one input colour and one output colour, offsets, assignment", "why_tests_cant": "The clauses must say this for all sizes and offsets; a colour set in the wrong column still gives satisfiable clauses for many of them.", "anchors": ["factorio_sat/belt_balancer.py: setup_balancer_ends_with_offsets"]}
{"id": "C110", "title": "What the other programs print comes back from a blueprint", "statement": "In belt_balancer_net_free | blueprint encode | blueprint decode, and likewise for belt_balancer_net_free_power_of_2 and interchange, nothing fails and a line comes out for each layout printed, in the same order. The decoded layout is the printed one, tile for tile, cut to what it contains; for the last two programs nothing is cut.", "quantifier": "every size, option, correct solver, label, belt level, line-free blueprint coding", "why_tests_cant": "Whether a belt turns is not stored in a blueprint but deduced from its surroundings; that this works for every layout a program can print follows from rules that hold for all of them.", "anchors": ["factorio_sat/blueprint.py: encode", "factorio_sat/blueprint.py: decode", "factorio_sat/belt_balancer_net_free.py: main", "factorio_sat/belt_balancer_net_free_power_of_2.py: main", "factorio_sat/interchange.py: main"]}
{"id": "C111", "title": "simplify ends and keeps what a network does", "statement": "simplify(network) returns after finitely many steps a network with at most as many splitters, in which every splitter has an input and an output, none only passes items on and none takes exactly the outputs of another one. The steady flows of the two networks are the same on the belts that are left, and their inputs and outputs correspond.", "quantifier": "every network, steady flow; with and without allow_bottleneck for termination and the form of the result", "why_tests_cant": "Each step changes the network that the next one works on; that no sequence of steps runs forever or changes the flows needs an invariant.", "anchors": ["factorio_sat/network.py: simplify", "factorio_sat/network.py: remap_colours"]}
{"id": "C112", "title": "query reports best balancers after any runs of compute", "statement": "After any number of runs of calculate_optimal compute with one underground length, each with any objective, any listing order of the directory and ended after any number of solver runs, calculate_optimal query with that length does not fail, and prints one line per network reported, in the order of the numbers of inputs and outputs. Every line is a balancer for its network, at least as good as every balancer of a size that the search considers. If the last run came to its end, query with its objective has a line for every network. With --allow-imperfect there is a line for exactly the networks with a solution in the database, no worse than the others in the database.", "quantifier": "every directory of networks with ends, history of compute runs with right solver answers, objective and listing order", "why_tests_cant": "The database is the result of arbitrarily many interleaved solver runs and restarts; a test sees one history.", "anchors": ["factorio_sat/calculate_optimal.py: main", "factorio_sat/calculate_optimal.py: NetworkSolutionStore", "factorio_sat/calculate_optimal.py: LengthObjective", "factorio_sat/calculate_optimal.py: AreaObjective", "factorio_sat/calculate_optimal.py: solve_balancer"]}
{"id": "C113", "title": "Reported balancers can be pasted and divide evenly", "statement": "The output of calculate_optimal query, sent through blueprint encode and blueprint decode, never makes these programs fail; what comes back, in the order of the networks, are the reported best balancers without the empty rows at their sides, one for every network after a compute run that came to its end. In a reported balancer for a network that divides evenly, every output carries the same part of everything that is supplied in the first column. This holds for all networks that come with the program.", "quantifier": "every directory of networks, history of compute runs, objective, blueprint label and belt level, and every supply of items", "why_tests_cant": "A test pastes a few balancers and supplies a few flows; the claim is about every history, every layout the solver may find and every supply.", "anchors": ["factorio_sat/calculate_optimal.py: main", "factorio_sat/blueprint.py: main", "factorio_sat/blueprint.py: encode_blueprint", "factorio_sat/blueprint.py: decode_blueprint", "factorio_sat/belt_balancer.py: main", "networks"]}
{"id": "C114", "title": "A turned or mirrored layout does the same", "statement": "Turning or mirroring a layout changes nothing about what it does: the rules of the game hold on the result if they do on the original, belts leave and enter it at the moved cells, and it carries exactly the amounts that the original carries, moved. So the output of belt_balancer can be sent through rotate and then through blueprint encode: nothing fails, and the turned layout, as well as what is pasted from the string, has its outputs at the moved outputs and carries, with items supplied at the moved inputs, what the printed layout carries.", "quantifier": "every layout, every one of the six operations, every network, size and options of belt_balancer, every correct solver, label, belt level and supply of items", "why_tests_cant": "A test turns a few layouts and compares tiles; the claim is about every layout and every flow of items on it, and mirroring exchanges the halves of splitters.", "anchors": ["factorio_sat/rotate.py: main", "factorio_sat/rotate.py: Operation", "factorio_sat/tile.py: Belt", "factorio_sat/tile.py: Splitter", "factorio_sat/belt_balancer.py: main", "factorio_sat/blueprint.py: main"]}
{"id": "C115", "title": "Tidying, recolouring and network parse keep what a network does", "statement": "A network that is tidied (network parse does this before it writes a file) or given cheaper colour numbers still has the same number of inputs and outputs, and exactly the same amounts can flow from its inputs to its outputs; so it is a balancer exactly if it was one. The file that network parse writes for a line of solver output can be opened, its network has as many inputs and outputs as belts bring items to the splitters of the layout and take them away, and what flows through it is exactly what can flow through the layout. So when the output of belt_balancer, run for a network that is a balancer and whose splitters all have two inputs in use (or all two outputs), is sent to network parse, any file that is written holds a balancer.", "quantifier": "every network, every order of sets, every correct solver, every layout without faults and every text that stands for it, every size and options of belt_balancer", "why_tests_cant": "A test compares one network before and after; which amounts can flow is a question about infinitely many flows, and the colours, the order of splitters and the sides all change at once.", "anchors": ["factorio_sat/network.py: main", "factorio_sat/network.py: fix_colours", "factorio_sat/network.py: tidy_network", "factorio_sat/network.py: optimise_colours", "factorio_sat/network.py: save_network", "factorio_sat/belt_balancer.py: main"]}
{"id": "C116", "title": "Layouts without a network can be turned and pasted", "statement": "When the output of belt_balancer_net_free, belt_balancer_net_free_power_of_2 or interchange is sent through rotate and then blueprint encode, both read everything and write one line for each layout, in order. What is pasted from such a line has nothing outside of the moved cells and carries exactly what the layout does, moved: the outputs of a balancer still each carry the same part of the sum of the inputs, the pairs of outputs of the inner part of a power of two balancer still have the mean of all as their mean, and each output of an interchange still carries what its input gets, in an order that mixes the two halves.", "quantifier": "all sizes and options of the three programs, every turn and mirroring, every correct and complete solver, every codec, label and belt level, one solution or all, and all amounts of items", "why_tests_cant": "A test turns one layout and looks at the picture; that what is pasted does the same is a statement about all flows of all layouts a program can print.", "anchors": ["factorio_sat/rotate.py: main", "factorio_sat/blueprint.py: main", "factorio_sat/belt_balancer_net_free.py: main", "factorio_sat/belt_balancer_net_free_power_of_2.py: main", "factorio_sat/interchange.py: main"]}
{"id": "C117", "title": "The network read from a balancer found without a network is a balancer", "statement": "When the output of belt_balancer_net_free, run for at least two and equally many inputs and outputs, is sent to network parse, a file is written unless the layout has an underground entrance in its top row. The file can be opened and holds a network with that many inputs and outputs, which divides whatever it gets evenly between its outputs. So a balancer found without a network gives a network that can be used with belt_balancer.", "quantifier": "all widths of at least two, heights, numbers of belts from two on, underground lengths, alignments and partial layouts, every correct and complete solver, every order in which the parser goes through its sets", "why_tests_cant": "A test parses one layout; that no input belt passes by all splitters, and that the network read divides evenly for all amounts, must hold for every layout the solver may find.", "anchors": ["factorio_sat/belt_balancer_net_free.py: main", "factorio_sat/network.py: parse_network", "factorio_sat/network.py: main", "factorio_sat/network.py: save_network"]}
{"id": "C118", "title": "A turned layout is read as a network that does the same", "statement": "When a solved layout is turned or mirrored with rotate and the result is sent to network parse, the file written holds a network with as many inputs and outputs as the layout itself has, and the amounts it can carry are exactly those the layout can carry. So the networks read from a layout and from its turned copy have the same flows, and one is a balancer if and only if the other is. Unless an underground belt begins in a cell that comes to lie in the top row, a file is written exactly when no splitter faces an empty cell. In particular the balancers that belt_balancer_net_free finds for at least two belts can be turned, and what is then read from them is a balancer; so are those of belt_balancer, under the conditions of C115.", "quantifier": "all sound layouts of any size that bring items to and take items from a splitter, all six operations, all amounts, every order in which the parser goes through its sets; for the programs, all widths of at least two, heights, numbers of belts from two on and solvers", "why_tests_cant": "A test parses one layout and one turned copy; the order in which splitters and colours are found depends on the orientation, so the files differ and only what the networks carry, for all amounts, is the same.", "anchors": ["factorio_sat/rotate.py: Operation", "factorio_sat/network.py: parse_network", "factorio_sat/network.py: main", "factorio_sat/belt_balancer_net_free.py: main"]}
