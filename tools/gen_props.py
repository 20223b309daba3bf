#!/usr/bin/env python3
"""Regenerates properties.jsonl (one JSON object per line)."""
import json, os
P = []
def p(title, statement, quantifier, why, anchors):
    P.append(dict(id="C%02d" % (len(P) + 1), title=title, statement=statement, quantifier=quantifier, why_tests_cant=why, anchors=anchors))

U = "factorio_sat/util.py"; S = "factorio_sat/solver.py"; T = "factorio_sat/template.py"; N = "factorio_sat/network.py"
B = "factorio_sat/belt_balancer.py"; O = "factorio_sat/calculate_optimal.py"; BP = "factorio_sat/blueprint.py"

p("Adder clauses mean integer addition",
  "The clauses returned by add_numbers(a, b, out, allocator, carry_in, allow_overflow) are satisfied exactly by the truth assignments (up to the freshly allocated carry variables) in which the little-endian number read from out equals value(a) + value(b) + carry_in: exactly when out has one extra bit, exactly with no overflow permitted when out has the same width and allow_overflow is false, and modulo 2^n when allow_overflow is true. No other assignment of a, b, out is lost or admitted.",
  "every bit width, every choice of literals (including repeated and negated ones), every carry_in presence/absence, every truth assignment",
  "2^(3n) assignments per width and unboundedly many widths; a wrong clause for one carry pattern at one width is invisible to sampled cases.",
  [U + ": add_numbers", U + ": read_number"])
p("Multi-operand sum clauses mean integer sum",
  "The clauses returned by sum_numbers(numbers, output, allocator) are satisfied (up to freshly allocated variables) exactly when value(output) is the sum of the operand values and no partial sum overflows the operand width; with allow_overflow the same holds modulo 2^n.",
  "every number of operands >= 2, every width, every truth assignment",
  "The operand count and width are unbounded and the chaining of intermediate results is where an off-by-one (last operand, last output) hides.",
  [U + ": sum_numbers"])
p("Popcount clauses count true bits",
  "The clauses returned by get_popcount(bits, output, allocator) are satisfied (up to freshly allocated variables) exactly when value(output) is the number of true literals in bits, and the recursion never trips its own length assertion when called with a correctly sized output.",
  "every list of at least two literals, every truth assignment",
  "The recursion splits odd/even lengths differently at every level; correctness at every length is an induction, not a finite check.",
  [U + ": get_popcount", U + ": bin_length"])
p("Increment clauses mean +1 modulo 2^n",
  "The clauses returned by increment_number(input, output) are satisfied exactly when value(output) = (value(input) + 1) mod 2^n.",
  "every width n > 0, every truth assignment", "Unbounded width; carry chains of every length matter.",
  [U + ": increment_number"])
p("Maximum clauses mean a numeric upper bound",
  "The clauses returned by set_maximum(value, literals) are satisfied exactly when value(literals) <= value, for each value < 2^n; larger or negative values are rejected by the assertion rather than silently encoded.",
  "every width, every bound, every truth assignment",
  "The clause set depends on the bit pattern of the bound; only a proof covers all patterns.",
  [U + ": set_maximum"])
p("Constant clauses pin exactly one value, and reading it back returns it",
  "set_number(value, literals) is satisfied exactly when the number read from the literals is value; set_not_number(value, literals) is the clause satisfied exactly when it is not; read_number(get_bits(value, n)) = value, and the signed reading is two's complement.",
  "every width, every value in range, every truth assignment", "All widths and values.",
  [U + ": set_number", U + ": set_not_number", U + ": read_number", U + ": get_bits"])
p("Unordered pair clauses pin exactly the pair, in either order",
  "set_numbers(a, b, A, B) is satisfied exactly when (value(A), value(B)) is (a, b) or (b, a); set_numbers_equal(A, B) is satisfied exactly when the numbers are equal, also for different lengths when that is allowed.",
  "every width, every pair of values, every truth assignment", "The correlated/anti-correlated bit logic has a different clause set for each pair of values.",
  [U + ": set_numbers", U + ": set_numbers_equal"])
p("Negation clauses mean two's complement negation",
  "The clauses returned by invert_number(input, output, allocator) are satisfied (up to freshly allocated variables) exactly when the signed value of output is minus the signed value of input, which is only possible when input is not the most negative number.",
  "every width, every truth assignment", "Unbounded width and the single excluded value.",
  [U + ": invert_number"])
p("At-most-one and exactly-one encodings",
  "quadratic_amo and heule_amo (any cutoff >= 3) are satisfied, up to freshly allocated variables, exactly when at most one literal is true; quadratic_one and heule_one exactly when exactly one is true.",
  "every list length, every cutoff, every truth assignment", "Unbounded list length and a recursive splitting with auxiliary variables.",
  ["factorio_sat/cardinality.py: quadratic_amo, heule_amo, quadratic_one, heule_one"])
p("Logarithmic at-most-one admits the all-false assignment",
  "logarithmic_amo(literals, allocator), like the other AMO encodings, is satisfied (up to fresh variables) exactly when at most one literal is true.",
  "every list length, every truth assignment", "Needs all assignments; the failing one (all false) is easily omitted from tests.",
  ["factorio_sat/cardinality.py: logarithmic_amo, logarithmic_one"])
p("Symmetry breaking keeps a representative of every mirror pair",
  "break_symmetry(left, right) is satisfied (up to fresh variables) exactly when left is lexicographically at most right, and therefore break_vertical_symmetry rejects no layout together with its vertical mirror image: whenever an assignment is rejected, its mirror is accepted. On every grid of at least two rows (for one row the function fails its assertion), a solution of the basic constraints, or of a balancer without fixed ends, remains or its mirror image does.",
  "every grid size, every network, every assignment of the tile variables", "Lossless pruning is a statement about all layouts of all sizes.",
  [U + ": break_symmetry", "factorio_sat/optimisations.py: break_vertical_symmetry"])
p("Conditional clauses only bite under the condition",
  "implies(condition, consequences) is satisfied exactly when either some condition literal is false or all consequences are satisfied; literals_same/literals_different/set_all_true/set_all_false/invert_components have their named meaning.",
  "every condition list, every clause list, every assignment", "Ranges over all clause lists.",
  [U + ": implies, literals_same, literals_different, set_all_true, set_all_false, invert_components"])
p("Templates allocate fresh, disjoint variables and read back what was assigned",
  "Instantiating any (nested) template draws exactly variable_count new variables from the pool, no two leaves of one instance and no two instances share a variable, and parsing an instance under an assignment returns the value described by that assignment (boolean, little-endian number, index of the first true bit, list of true indices).",
  "every template tree, every array shape, every pool state, every assignment", "Template trees nest arbitrarily.",
  [T + ": BoolTemplate, ArrayTemplate, OneHotTemplate, ManyHotTemplate, NumberTemplate, CompositeTemplate, BaseGrid"])
p("Offset lookup respects edge mode",
  "get_tile_instance_offset(x, y, dx, dy) returns the tile at the offset position when it is inside the grid; outside, it returns None on a NO_WRAP axis and the tile at the position modulo the size on a WRAP axis, independently per axis; it never fails.",
  "every grid size, position, offset (any integer) and edge mode pair", "Unbounded integers, both axes.",
  [T + ": BaseGrid.get_tile_instance_offset"])
p("Every satisfying assignment decodes to a well-formed tile in every cell",
  "For every assignment satisfying the clauses created by Grid(...), decoding any cell succeeds (no assertion, no exception) and yields a tile whose kind and directions agree with the assignment: belts have an input and an output and never output back to the side they were fed from, undergrounds have one direction, splitters one direction.",
  "every grid size, every edge mode, every satisfying assignment, every cell", "The solver may return any satisfying assignment.",
  [S + ": Grid.__init__, Grid.read_tile", "factorio_sat/tile.py: Belt.__post_init__"])
p("Pinning a tile pins exactly that tile",
  "After set_tile(x, y, t), the satisfying assignments are exactly the previously satisfying ones whose decoded cell (x, y) is t (a filler tile decodes as empty).",
  "every grid, every cell, every tile, every assignment", "Ranges over all satisfying assignments.",
  [S + ": Grid.set_tile, Grid.read_tile"])
p("Splitter halves are always paired",
  "In every decoded layout of a NO_WRAP or WRAP grid, a splitter head facing d at p has the tail half of a splitter facing d at the neighbour in direction d.next, and conversely every tail has a head, so halves are in bijection; on a NO_WRAP grid no splitter sticks out of the grid.",
  "every grid size and edge mode, every satisfying assignment", "All layouts.",
  [S + ": Grid.__init__"])
p("Belts never dangle or collide",
  "After prevent_intersection, in every decoded layout an output of a belt or underground exit into a neighbouring cell of the grid is received by a belt, underground entrance or splitter fed from that direction, and a belt or underground entrance fed from inside the grid is fed by a tile that outputs in that direction; so no two tiles feed the same tile and no tile outputs into another tile's side.",
  "every grid size and edge mode, every satisfying assignment, every pair of neighbours", "All layouts.",
  [S + ": Grid.prevent_intersection"])
p("Unconnected splitter outputs do not leak into neighbouring tiles",
  "After prevent_intersection, if a splitter half has no output in the assignment then the tile in front of it cannot accept items from it under the game's rules (side-loading a belt or an underground belt, or feeding it from behind).",
  "every grid, every satisfying assignment", "All layouts; the missed case is one specific tile kind.",
  [S + ": Grid.prevent_intersection"])
p("Every underground entrance is connected to exactly one exit",
  "After prevent_bad_undergrounding (and blocking undergrounds at the edges on a NO_WRAP grid), every underground entrance facing d has an underground exit facing d straight ahead with at least one cell between them, no other underground of the same axis in between, and conversely for every exit.",
  "every grid size and edge mode, every satisfying assignment", "Underground runs have unbounded length.",
  [S + ": Grid.prevent_bad_undergrounding, Grid.block_underground_through_edges"])
p("Maximum underground length is respected",
  "After enforce_maximum_underground_length with limit L, the number of cells strictly between an underground entrance and its exit is at most L in every decoded layout; and the constraint excludes nothing else. With an infinite limit no clause is added.",
  "every grid size, every limit, every satisfying assignment", "Unbounded limits and sizes.",
  [S + ": Grid.enforce_maximum_underground_length"])
p("Colour is constant along a belt line",
  "After prevent_bad_colouring, colours of connected non-splitter tiles agree: each tile and the tile it outputs to, and each underground entrance and its matching exit, carry the same colour, hence the colour is constant along every path that does not pass through a splitter.",
  "every grid size, number of colours, satisfying assignment, path length", "Paths have unbounded length.",
  [S + ": Grid.transport_quantity, Grid.prevent_bad_colouring"])
p("Blocked edges are not crossed",
  "After block_belts_through_edges / block_underground_through_edges with any edge selection, no decoded tile moves items across a selected edge, above or below ground; unselected edges are unaffected.",
  "every grid size, every subset of edges, every satisfying assignment", "All layouts.",
  [S + ": Grid.block_belts_through_edges, Grid.block_underground_through_edges"])
p("Input/output markers mark exactly the boundary crossings",
  "is_input (is_output) of a cell is true exactly when the cell takes items from (delivers items to) a position outside the grid.",
  "every grid size, every satisfying assignment, every cell", "Degenerate sizes (width or height 1) are where the case analysis breaks.",
  [S + ": Grid.__init__ (Inputs and outputs)"])
p("Solution enumeration is complete and duplicate-free",
  "For any solver that answers correctly, itersolve yields satisfying assignments that pairwise differ on the important variables, stops after finitely many, and when it stops every satisfying assignment agrees with a yielded one on the important variables.",
  "every clause set, every set of important variables, every (correct, nondeterministic) solver behaviour", "Ranges over all solver behaviours and histories of blocking clauses.",
  [T + ": BaseGrid.itersolve"])
p("Enumeration ignoring colour does not lose layouts",
  "On a NO_WRAP grid two satisfying assignments that agree on the variables Grid.itersolve(ignore_colour=True) treats as important decode to the same tiles, so enumerating with --all yields every distinct layout exactly once.",
  "every grid size, every pair of satisfying assignments", "Splitter head/tail flags are not among the important variables; that they are determined is an induction along runs of splitters.",
  [S + ": Grid.itersolve", T + ": BaseGrid.itersolve"])
p("A generated balancer realises the requested splitter network",
  "In every satisfying assignment of create_balancer(network, ...) the splitters in the layout can be labelled with network nodes so that each node type is used exactly as often as it occurs in the network, every splitter's two incoming belts carry the node's input colours and its outgoing belts the node's output colours (None meaning unconnected), and the numbers of belts entering and leaving the grid are the network's input and output counts with the right colours.",
  "every network, grid size and satisfying assignment (given correct cardinality clauses from the SAT library)", "All networks, all layouts.",
  [B + ": create_balancer", N + ": get_input_output_colours, deduplicate_network"])
p("Balancer ends may be placed at every offset",
  "setup_balancer_ends forces the inputs (outputs) to be one contiguous block of straight-in belts on the first (last) column and allows every vertical position of that block.",
  "every grid height, every input/output count, every offset", "The missing offset is the last one for heights greater than the count.",
  [B + ": setup_balancer_input, setup_balancer_output, setup_balancer_ends", "factorio_sat/belt_balancer_net_free.py: setup_balancer_ends"])
p("Net-free n-to-n balancers really balance",
  "In every satisfying assignment of create_n_to_n_balancer the flow numbers form an exact splitter flow: each splitter's two outputs both carry exactly half of the sum of its two inputs per input component, belts and undergrounds preserve flow, input row i carries full_flow of component i and nothing else, and each output row carries exactly full_flow/size of every component, which is an exact division.",
  "every size, grid and satisfying assignment", "All sizes and layouts; exactness of the halving depends on carry bits.",
  ["factorio_sat/belt_balancer_net_free.py: create_n_to_n_balancer, next_power_of_two, lcm"])
p("Net-free n-to-m flow constants divide exactly and partial splitters conserve flow",
  "For create_n_to_m_balancer the per-belt input and output flows computed by integer division are exact (no remainder), forward and backward totals are conserved, never exceed the belt maximum, and splitters with one connected input (output) halve (add) flows exactly. The layout that is printed balances: whatever enters, each output belt carries the same share of the total, and whatever is taken out, each input belt gives the same share.",
  "every pair of counts, every grid and satisfying assignment", "Unbounded counts; a remainder for one pair would silently unbalance.",
  ["factorio_sat/belt_balancer_net_free.py: create_n_to_m_balancer, lcm, next_power_of_two"])
p("Power-of-two balancers mix disjoint input sets",
  "In every satisfying assignment of the power-of-two create_balancer, treating a belt's colour as a set of input pairs, every splitter receives disjoint sets and emits their union on both outputs, a splitter of level i receives sets of size 2^i, each level has exactly height/2 splitters, and each adjacent output pair carries complementary sets. Hence, with a row of splitters in front of and behind the layout, every output gets the same share of the inputs.",
  "every power-of-two height, width, satisfying assignment", "Unbounded height; set algebra on bits.",
  ["factorio_sat/belt_balancer_net_free_power_of_2.py: create_balancer"])
p("Interchange flow requirement is the true requirement",
  "flow_counts(h/2) lists, for each horizontal cut after an even number of rows of an interchange of height h, exactly the net number of belts of the lower colour that must cross upwards (equivalently of the upper colour downwards) to turn a half/half input into one-of-each output pairs.",
  "every even height", "Closed form with abs and floor division, different for odd and even halves.",
  ["factorio_sat/interchange.py: flow_counts, require_correct_transport_through_edges"])
p("Single-loop blocks are a single loop",
  "In every satisfying assignment of the make_block --single-loop constraints, following belts and undergrounds from the top-left cell visits every cell of the grid exactly once before returning.",
  "every grid size, every satisfying assignment", "Unbounded loop lengths; number wrap-around must be excluded.",
  ["factorio_sat/make_block.py: ensure_loop_length, main"])
p("make_block honours --underground-length",
  "In every block produced with --underground-length L no underground section is longer than L.",
  "every L, every mode of operation", "Depends on the combination of options.",
  ["factorio_sat/make_block.py: main"])
p("Generated networks have the requested size",
  "create_benes_network(size) terminates for every size >= 2 and returns a network with exactly one input colour and one output colour, each of count size, all other colours balanced.",
  "every size >= 2 (odd sizes go through size+1)", "Unbounded size; recursion mixes halving and rounding up.",
  [N + ": create_benes_network, get_input_output_colours, remap_colours"])
p("Network files round-trip",
  "open_network(save_network(n)) = n for every network whose colours are None or integers other than -1; comments and blank lines are ignored; a line with a number of fields other than four is rejected.",
  "every network, every file text", "All texts.", [N + ": open_network, save_network"])
p("Flipping a network swaps inputs and outputs",
  "flip_network is an involution and exchanges the input and output colour and counts of a network. calculate_network_size counts the colours that only come in and those that only go out, and flipping exchanges the two numbers.",
  "every network", "All networks.", [N + ": flip_network, get_input_output_colours"])
p("Colour normalisation is a faithful renaming",
  "fix_colours renames colours injectively onto 0..k-1 with exterior input colours first and exterior output colours last, leaves None alone, and so preserves the network up to renaming. The number of colours, which calculate_total_colours counts, stays the same.",
  "every network, every iteration order of the sets", "Set iteration order is unspecified; all orders must work.",
  [N + ": fix_colours, remap_colours"])
p("Deduplication keeps the multiset of splitters",
  "deduplicate_network counts each splitter up to swapping its two inputs or its two outputs: total count equals the network length, and two nodes get the same key exactly when they agree up to such swaps; input/output colours and counts are unchanged.",
  "every network", "All networks.", [N + ": deduplicate_network"])
p("Layout transformations form the symmetry group of the rectangle and act correctly on connections",
  "rotate/flip operations on a grid compose as geometry says (four quarter turns are the identity, half turn is two quarter turns, flips are involutions, flip_y is a rotation-conjugated flip_x), and a transformed layout has a connection, underground pair or splitter pairing between two cells exactly when the original has it between the original cells.",
  "every grid size, every layout", "All layouts; head/tail swap under reflection.",
  ["factorio_sat/rotate.py: Operation", "factorio_sat/tile.py: rotate_90, flip_x, flip_y"])
p("Rotating a layout with assembling machines keeps the machines intact",
  "After any rotate operation an assembling machine's cells still form a machine (each cell's stored offset equals its position relative to the machine's top-left cell).",
  "every layout with machines, every operation", "Depends on tile kinds not exercised by balancers.",
  ["factorio_sat/rotate.py: main", "factorio_sat/tile.py: AssemblingMachine"])
p("Tiles round-trip through their JSON form",
  "BaseTile.read(t.write()) = t for every tile, and read rejects what write never produces (reversed belts, unknown types).",
  "every tile", "All tiles of all kinds.", ["factorio_sat/tile.py: write, read", BP + ": read_tile, write_tile"])
p("Text grids round-trip",
  "stringifier.decode(encode(g)) = g for every rectangular grid of belts, undergrounds, splitters, fillers and empty tiles; encoding is injective; a grid with an inserter or assembling machine encodes to a text that decode rejects.",
  "every grid size and content", "All grids.", ["factorio_sat/stringifier.py: MAPPING, encode, decode"])
p("Blueprints round-trip",
  "import_blueprint(make_blueprint(tiles)) is tiles cropped to its non-empty bounding box, with fillers dropped and each belt's input direction recomputed from its neighbours, for every layout whose splitter halves are paired, at every belt level.",
  "every grid size and content", "Negative offsets, splitter half positions and row/column order.",
  [BP + ": make_blueprint, import_blueprint, resolve_belt_input_directions", "factorio_sat/direction.py: from_factorio, factorio_direction"])
p("Recomputed belt input directions agree with the solver's",
  "For every solver layout satisfying prevent_intersection, resolve_belt_input_directions restores exactly the input direction the solver chose for every belt that is fed from inside the grid.",
  "every layout", "All layouts; splitters with unconnected outputs look connected to the resolver.",
  [BP + ": resolve_belt_input_directions", S + ": prevent_intersection"])
p("Blueprint books keep blueprints in order",
  "unpack_book(pack_book(bs)) returns the blueprints bs in order, each with only its index set to its position; packing does not modify its argument.",
  "every list of blueprints", "All lists.", ["factorio_sat/blueprint_book.py: pack_book, unpack_book"])
p("Game version numbers round-trip",
  "decode_factorio_version(encode_factorio_version(a,b,c,d)) = (a,b,c,d) for all 16-bit components, and conversely for all 64-bit values; out-of-range values are rejected.",
  "all 2^64 values", "2^64 values.", [BP + ": encode_factorio_version, decode_factorio_version"])
p("Existence answers are consequences of what was recorded",
  "does_balancer_exist(size) returns True only if a recorded solved size is componentwise at most size, False only if a recorded unsolvable size is componentwise at least size, and if the records are true of an upward-closed feasibility relation the answer is never wrong; None exactly when nothing recorded decides.",
  "every record history, every queried size", "All histories.", [O + ": NetworkSolutionStore.does_balancer_exist, add_solution"])
p("Cleaning the store changes no answer",
  "clean() never changes the answer of does_balancer_exist for any size (for stores without contradictory records) and never removes a solution.",
  "every store, every queried size", "All histories and dictionary orders.", [O + ": NetworkSolutionStore.clean"])
p("The result database round-trips",
  "from_json(to_json(store)) restores exist and solutions exactly, including dictionary order.",
  "every store", "All stores.", [O + ": to_json, from_json"])
p("The search for an optimum terminates and is never declared finished early",
  "next_size always returns; a returned size is undecided by the store; when it returns None every size with smaller objective value in the searched family is known not to exist, and best_current_solution then returns a solution of minimal objective value (given truthful, upward-closed records).",
  "every store, network and underground length, both objectives", "Unbounded search loops.",
  [O + ": LengthObjective, AreaObjective, best_current_solution"])
p("factors enumerates every factor pair once",
  "factors(n) yields exactly the pairs (a, b) with a*b = n, each once.",
  "every n >= 1", "All n; perfect squares.", [O + ": factors"])
p("Concurrent optimisation is schedule independent",
  "For any interleaving of the asyncio optimisation tasks, each network's store evolves exactly as if its task ran alone, and every save writes the current state of all stores.",
  "every interleaving of any number of tasks", "Unboundedly many schedules.", [O + ": main (optimise, save_progress)"])
p("A crash while saving never loses previously saved results",
  "At every crash point during save_progress, the database file that a restart reads contains at least the previously saved results.",
  "every crash point, every pair of old and new contents", "Crash points cannot be enumerated by tests of the happy path.", [O + ": main (save_progress)"])
p("Query export produces blueprints",
  "calculate_optimal query --export-blueprints prints a blueprint for every solved network.",
  "every database", "Only exercised with a populated database.", [O + ": main (encode_solution), get_belt_level", BP + ": make_blueprint"])
p("External solver answers are read exactly",
  "run_command_solver returns exactly the literal list printed by a solver following the SAT competition output format, however the values are split over v lines and whatever comment lines are interspersed, None exactly on UNSATISFIABLE, and raises on any other status.",
  "every literal list, every splitting into lines, every interspersing of comments", "Unbounded outputs.", [T + ": run_command_solver"])
p("IPASIR clause streams are faithful",
  "The zero-terminated literal stream sent to an IPASIR solver decodes to exactly the given clauses, the recorded variable set is exactly the set of variables used, and a model read back assigns each recorded variable once.",
  "every clause list of non-zero literals", "All clause lists.", ["factorio_sat/ipasir.py: add_clause, add_clauses, get_model"])
p("UNSAT verdicts are trustworthy for the basic rules",
  "Every layout that obeys the basic rules (paired splitters, connected belts, paired undergrounds within the length limit) is represented by some satisfying assignment of the corresponding clauses, so UNSAT implies that no such layout exists.",
  "every grid size, every layout", "Completeness over all layouts.", [S + ": Grid.__init__, prevent_intersection, prevent_bad_undergrounding, enforce_maximum_underground_length"])
p("Optimisation clauses forbid exactly the described pattern",
  "Each generic optimisation (small loops, empty underground spans, mergeable undergrounds, glued splitters, expandable undergrounds, belt hooks, semicircles, zigzags, belts parallel to splitters) rejects an assignment exactly when the decoded layout contains the pattern it describes somewhere in the considered region, and nothing else.",
  "every grid size, every assignment", "Position and direction ranges; boundary rows and columns.", ["factorio_sat/optimisations.py"])
p("Removing an empty underground span keeps the layout valid",
  "A layout rejected by prevent_empty_along_underground because all cells between an entrance and its exit are empty can be rewritten with surface belts into a layout that still satisfies the basic rules, has the same boundary connections and uses no such span, so the pruning loses no balancer.",
  "every layout, every span", "All layouts.", ["factorio_sat/optimisations.py: prevent_empty_along_underground"])
p("Block iteration honours its bounds",
  "iterate_tile_blocks(..., min_x, min_y, max_x, max_y) visits exactly the blocks whose anchor and far corner lie within the bounds. iterate_tile_lines(direction, length) yields one line for every cell, whose tiles lie one after another in the direction.",
  "every grid, block size, directions and bounds", "Mixed-up axes only show for particular bounds.", [T + ": BaseGrid.iterate_tile_blocks"])
p("Parsing a layout recovers its network",
  "parse_network of a layout of belts, underground belts and splitters that obeys the connection rules returns a network with exactly one node per splitter, whose inputs are coloured None if nothing is connected, 0 if they come from no splitter and i + 1 if they come, along any belt line, from the i-th splitter, and whose outputs are coloured None if not connected, i + 1 for the splitter's own number if they lead to a splitter and one more than the number of splitters if they lead to none; it succeeds on every such layout.",
  "every layout, every set iteration order, with and without counting edge splitters as connected", "All layouts and belt lines of any length; the backward underground search has a row-dependent bound.", [N + ": parse_network"])
p("A generated network balances its belts",
  "In every steady flow through the network returned by create_benes_network(size) - each splitter gives half of what it receives to each output, and what leaves splitters or enters from outside under a colour is what arrives at splitters or leaves outside under that colour, however the belts of one colour are connected - there are size inputs and size outputs and every output carries the mean of the inputs.",
  "every size >= 2, every connection of the belts of each colour, every input amounts, every set iteration order", "All sizes, all flows; a rational-number argument over an inductively built network with feedback.",
  [N + ": create_benes_network"])
p("Tidying a network keeps the network",
  "tidy_network(network) returns the same network with the colours renamed one to one (None kept), the splitters reordered and the two connections of each splitter side in ascending order; the splitters come in the order of leaving outputs minus entering inputs, then of the first input; the input and output counts stay.",
  "every network, every set iteration order", "All networks.", [N + ": tidy_network"])
O2 = "factorio_sat/calculate_optimal.py"
p("Results of networks outside the directory survive a compute run",
  "After calculate_optimal compute, the database still has the results of every network it had results for before, including networks whose file is not in the directory at the moment.",
  "every database, every directory, every history of solver runs", "All histories and directories.", [O2 + ": main (save_progress)"])
p("The belt level of an export is the cheapest sufficient one",
  "get_belt_level(n) is the level of least reach whose reach is at least n, and the express level if none reaches that far.",
  "every underground length", "All integers.", [O2 + ": get_belt_level"])
p("The exported table tells the truth",
  "A cell of the exported table shows the square of the cheapest belt level for which a balancer of that size is known, a cross only if no balancer of that size exists at any level, and a question mark only if nothing is known.",
  "every store with consistent records, every size", "All record histories.", [O2 + ": export_crosstable"])
p("Exporting the table is idempotent and keeps the rest of the file",
  "export_crosstable keeps all lines before the heading, replaces everything after it, and exporting again without new results leaves the file as it is.",
  "every store list, every earlier file content", "All file contents.", [O2 + ": export_crosstable"])
p("Tables and query results come in numeric order",
  "Stores are listed by number of inputs, then number of outputs (as numbers, not as text), names without numbers last, and none is lost or repeated.",
  "every list of stores", "All names.", [O2 + ": ordering_key, export_crosstable, main"])
p("Every blueprint of supported entities can be imported",
  "import_blueprint succeeds on every blueprint of belts, undergrounds, splitters and inserters that do not overlap, and gives each belt the direction it is fed from.",
  "every blueprint", "All arrangements of entities; a pair of belts facing each other is enough to fail.", [BP + ": import_blueprint"])
p("Exported blueprints list each entity once",
  "make_blueprint numbers the entities 1 to n without gaps, lists exactly one entity per belt, underground end, inserter and splitter (not per splitter half) with its position and direction, and keeps the label.",
  "every grid, every belt level", "All grids.", [BP + ": make_blueprint"])
p("Blueprint strings read back and other versions are rejected",
  "decode_blueprint(encode_blueprint(x)) == x, encoded strings start with the format version 0, and a string with another version byte is rejected.",
  "every document, every codec whose decompression inverts its compression", "All documents.", [BP + ": encode_blueprint, decode_blueprint"])
MB = "factorio_sat/make_block.py"
p("make_block finds every block that obeys the rules, and no other",
  "Without --single-loop, a layout can be produced by make_block exactly when its belts, undergrounds and edges obey the rules, it has no splitters, no empty cells unless --allow-empty is given, no loop of four belts, nothing going below empty cells only, and no undergrounds if their length is zero.",
  "every size, every combination of options, every layout", "All layouts of all sizes; an UNSAT answer claims that none exists.", [MB + ": main"])
p("make_block --single-loop finds every loop",
  "With --single-loop, a layout that obeys the rules and is one loop through all cells can be produced by make_block.",
  "every size, with and without --tile, every layout", "All layouts of all sizes; an UNSAT answer claims that no loop exists.", [MB + ": main, ensure_loop_length"])
p("make_block --no-parallel avoids parallel undergrounds",
  "With --no-parallel, make_block produces blocks in which no two undergrounds along the same axis lie side by side.",
  "every size, every combination of the other options", "All blocks.", [MB + ": main, prevent_parallel"])
p("--break-symmetry of belt_balancer keeps a representative of every mirror pair of balancers",
  "If belt_balancer finds a balancer for a network, a grid size and a choice of ends, then it finds one with --break-symmetry too: with the option every solution or its mirror image is still found.",
  "every network, every grid size, with and without --aligned and --use-ends", "An option that loses solutions shows as UNSAT, which a test cannot tell from a size that has no balancer.",
  ["factorio_sat/belt_balancer.py: main, setup_balancer_ends", "factorio_sat/optimisations.py: break_vertical_symmetry"])
p("A printed balancer does in the game what its network does",
  "For every layout belt_balancer prints for a network, and whatever steady amounts enter it, the amounts on the belts entering and leaving are those of a steady flow through the network; so if the network is a balancer, all belts leaving the layout carry the same amount.",
  "every network, every grid size, every solution, all amounts entering", "All solutions and all flows; the printed layout is checked by hand in the game at best.",
  ["factorio_sat/belt_balancer.py: create_balancer, main", N])
p("belt_balancer starts the solver for every usable network",
  "create_balancer raises no exception for a network that has one input colour and one output colour, at most one missing connection per splitter and non-negative colours, on every grid with room for its splitters and its ends; and it does raise one if there is not one input colour and one output colour, if a splitter misses two connections, or if the grid is empty.",
  "every network, every grid size", "All networks.", ["factorio_sat/belt_balancer.py: create_balancer"])
p("belt_balancer prints exactly the balancers that its options ask for",
  "Without --break-symmetry, a layout can be printed by belt_balancer for a network, a grid size, an underground length and any combination of the other options exactly when it obeys the rules of the game, its splitters and belts implement the network, its inputs and outputs are where the options put them, it contains the tiles of the partial layout, and it has none of the patterns that the options rule out. So an UNSAT answer means that there is no such balancer. With --break-symmetry everything printed still has these properties.",
  "every network, every grid of at least two rows and columns, every combination of options, every layout", "All layouts of all sizes; an UNSAT answer claims that none exists.",
  ["factorio_sat/belt_balancer.py: main, create_balancer, enforce_edge_splitters, set_nonempty_tiles, setup_balancer_ends, setup_balancer_ends_90, setup_balancer_ends_180", "factorio_sat/optimisations.py"])
p("--fast and --edge-splitters of belt_balancer do not lose all balancers",
  "If belt_balancer finds a balancer for a network and a grid size, it also finds one with --fast or --edge-splitters; these only move the splitters at the inputs and outputs to the edges.",
  "every network, every grid size", "An option that loses solutions shows as UNSAT, which a test cannot tell from a size that has no balancer.",
  ["factorio_sat/belt_balancer.py: main, enforce_edge_splitters"])
p("interchange prints exactly the interchanges that its options ask for",
  "For every size, underground length and choice of --alternating, --180 and --partial, and whatever the cardinality library returns as long as it is correct, the layouts that the interchange program can print are exactly the layouts that obey the rules of the game, contain no splitter, take a belt in every row on the left and put one out in every row on the right, colour the upper input rows 0 and the lower ones 1, mix the colours at the outputs as asked, and contain none of the detours the program excludes. In particular the constraints on the number of belts crossing each cut lose no layout. If it prints nothing there is none.",
  "all widths, heights, underground lengths, options, correct libraries and layouts",
  "unit tests run a few sizes; whether an added pruning constraint removes a valid layout is a statement about all layouts",
  ["factorio_sat/interchange.py:main", "factorio_sat/interchange.py:require_correct_transport_through_edges", "factorio_sat/interchange.py:prevent_passing", "factorio_sat/interchange.py:prevent_awkward_underground_entry", "factorio_sat/interchange.py:require_rotational_symmetry"])
p("Every belt entering an interchange leaves it, mixed as asked",
  "In every layout that the interchange program can print, following the belt that enters in row y from cell to cell (through underground belts) ends at the right edge in exactly one row, different rows end in different rows, and all rows are reached. With --alternating the upper half of the inputs leaves in the even rows and the lower half in the odd rows, otherwise rows 2i and 2i+1 get one belt from each half.",
  "all widths, heights, options and printed layouts",
  "following a belt through a layout of any size is an unbounded walk; tests look at single solutions",
  ["factorio_sat/interchange.py:main"])
p("interchange --all prints every interchange exactly once",
  "With a correct incremental solver, interchange --all ends, every layout it prints is an interchange of the requested kind, every interchange of the requested kind is printed, and no layout is printed twice.",
  "all widths, heights, options, correct libraries and correct solvers",
  "completeness and uniqueness of an enumeration range over all layouts and all answers of the solver",
  ["factorio_sat/interchange.py:main", "factorio_sat/solver.py:Grid.itersolve"])
p("belt_balancer_net_free finds exactly the balancers whose shares are whole in its unit",
  "For equally many inputs and outputs n, the layouts that belt_balancer_net_free can print are exactly those that obey the rules of the game, hold the inputs and outputs as blocks of straight belts at the two sides, connect all four ends of every splitter, have no splitter whose halves get the same, contain none of the patterns the program excludes, and in which the share of every input on every belt is a whole multiple of one part in lcm(2^ceil(log2 n), n), with every output getting one n-th of every input. If it finds nothing before the patterns are excluded, there is no such layout even with idle splitters. Balancers that need other fractions are not found.",
  "all widths, heights, underground lengths, numbers of belts and layouts",
  "An UNSAT answer claims that no balancer of the size exists; a test cannot tell a lost solution from a size that has none.",
  ["factorio_sat/belt_balancer_net_free.py: main, create_n_to_n_balancer, create_n_to_m_balancer", "factorio_sat/optimisations.py"])
p("The viewer exports the whole animation of the grid named in each file",
  "Whatever keys are pressed and in whatever order, render shows the frame that is due of the grid whose number is in the caption, moves through the lines of standard input in order and wraps around, and every file it writes holds all the frames of the grid whose number is in its name. With --export-all it ends by itself after writing exactly one file for each grid, in order. Saving with a key saves the grid that was on the screen.",
  "all inputs, all histories of events and all numbers of frames",
  "the export is spread over many rounds of an event loop and depends on what is pressed between them",
  ["factorio_sat/render.py: main, get_solution"])
p("Colours in the picture stand for colour numbers",
  "In a picture with --show-colour, things with the same colour number have the same colour, things with different numbers have different colours, and things without a number are grey. With --colour-count a number has the same colour in every solution, and every solution that has no more colours than that is drawn.",
  "all grids of any size, all sets of colour numbers and all counts",
  "the palette depends on the set of all numbers in a grid and on arithmetic with hues; tests look at a few numbers",
  ["factorio_sat/render.py: create_palette, render_solution"])
p("The animation of a solution is the shortest seamless loop",
  "After the number of frames that an exported animation of a solution has, its picture is the first one again, and no smaller number of frames has that property.",
  "all grids of any size and all frame numbers",
  "needs the equality of all frames of all grids with different periods",
  ["factorio_sat/render.py: get_animation_length, render_tile, render_solution"])
p("The picture shows the solution",
  "Every tile of a solution is drawn at its own place with the sprites of its kind and direction from the game's sprite sheets, and nothing is drawn for empty cells, so two solutions with the same picture are the same. The pieces are drawn in an order in which upper layers cover lower ones. With --show-underground exactly the cells below which an underground belt runs get a line along it. Every valid solution is drawn.",
  "all grids of any size, all frames and options",
  "a statement about every cell of every grid; comparing pictures of examples cannot show that two different grids never look the same",
  ["factorio_sat/render.py: render_tile, render_underground, render_solution, render_line"])
p("--show-raw writes the named value into its tile",
  "For every name given with --show-raw, the viewer writes into each tile the value to which the name leads, where the pieces of a dotted name are keys and indices. The text of a tile stays inside that tile, and its lines lie below each other without overlap.",
  "all grids, names, values and sizes of text",
  "ranges over all paths into arbitrary nested values and all sizes of text",
  ["factorio_sat/render.py: render_attributes"])
p("belt_balancer_net_free_power_of_2 finds exactly the balancers that mix pairs of inputs in stages",
  "For every width, every power of two, every underground length and every correct cardinality library, the layouts that belt_balancer_net_free_power_of_2 can print are exactly those that obey the rules of the game, have belts to the right in the first and last columns, connect all four ends of every splitter, contain none of the patterns the program excludes, and mix the inputs in stages: each splitter of stage i joins two disjoint sets of 2^i pairs of inputs, every stage has as many splitters as there are pairs, and each pair of outputs shares all inputs between its two rows.",
  "all widths, powers of two, underground lengths, correct libraries and layouts",
  "an UNSAT answer claims that no such layout of that width exists; a test cannot tell a lost solution from a width that has none",
  ["factorio_sat/belt_balancer_net_free_power_of_2.py: create_balancer, main", "factorio_sat/optimisations.py"])
p("belt_balancer_net_free finds exactly the balancers for different numbers of inputs and outputs whose shares are whole in its unit",
  "For different numbers of inputs m and outputs n, the layouts that belt_balancer_net_free can print are exactly those that obey the rules of the game, hold the inputs and outputs as blocks of straight belts at the two sides (nested when aligned), and admit connections between the splitters with at most one end of each splitter unconnected, over which the share of every input on every belt, and what every output draws through every belt, are whole numbers of units, with lcm(2^ceil(log2 min(m, n)), 2, m, n) units to a full belt, no two of which reach the highest bit on one belt, every output getting one n-th of every input and every input giving one m-th of every output, no splitter with four connected ends getting the same on both halves; and that contain none of the patterns the program excludes.",
  "all widths, heights, underground lengths, different numbers of inputs and outputs and layouts",
  "an UNSAT answer claims that no such balancer of the size exists; a test cannot tell a lost solution from a size that has none",
  ["factorio_sat/belt_balancer_net_free.py: main, create_n_to_m_balancer", "factorio_sat/optimisations.py"])
p("With --all the balancer programs print every balancer they look for, and then end; the net-free programs with equally many belts print none twice",
  "With a correct solver, --all ends, and then belt_balancer_net_free, belt_balancer_net_free_power_of_2 and belt_balancer (without --break-symmetry) have printed every layout that is a balancer in the sense of C84 and C91, C90 and C79 and has the tiles of the layout given with --partial, and nothing else. For equally many inputs and outputs, and in the program for powers of two, no layout is printed twice; otherwise a layout may be printed more than once, because two splitters that touch may be connected in different ways.",
  "all widths, heights, underground lengths, numbers of belts, networks, options, partial layouts and correct solvers",
  "an enumeration that stops early or loses a layout looks like a complete one; only a proof over all solver answers shows that nothing is missing",
  ["factorio_sat/belt_balancer_net_free.py: main", "factorio_sat/belt_balancer_net_free_power_of_2.py: main", "factorio_sat/belt_balancer.py: main", "factorio_sat/solver.py: Grid.itersolve"])
p("Every network that comes with the program is a balancer with the number of belts its name says, forwards and reversed",
  "Each file in networks/ can be read and is a network with one input colour and one output colour, with as many inputs and outputs as its name MxN says. However the belts of each colour are connected, and whatever arrives at the M inputs, each of the N outputs carries exactly one N-th of all that arrives. The same holds for the reversed network with N inputs and M outputs. So a layout that the belt balancer program finds for one of these files has M inputs and N outputs and shares evenly, in terms of the connections in the solution.",
  "all files in networks/, all ways to connect the belts, all amounts that arrive, all layouts found for them",
  "amounts are arbitrary numbers and the belts of a colour can be connected in any way, so trying inputs never settles it; a wrong network gives a layout that looks fine",
  ["networks/", "factorio_sat/network.py: open_network, flip_network, get_input_output_colours, deduplicate_network", "factorio_sat/belt_balancer.py: create_balancer"])
p("Solving through a shared library gives the library's answers, and its solver is released exactly once",
  "With a solver given as lib:..., solve returns a solution made from a model of the clauses if there is one and None if not, check says which, and itersolve yields what enumerating with a correct solver yields and ends when that ends. The same object can be used with further clauses and assumptions: solve says whether all clauses given so far and the literals assumed since the last solve can hold, and the model read afterwards makes them hold. However a run ends - no more solutions, nobody asks for more, an exception in the library's answer or in reading the solution - the library's solver is released exactly once and is not used afterwards. A closed object raises an exception for every method and does not call the library. The callback for learnt clauses gets the clause before the terminating zero.",
  "all libraries that follow the IPASIR interface, all sequences of method calls, all clauses, all numbers of solutions asked for, all points at which an exception ends the run",
  "releasing twice or using a released solver corrupts memory only for some orders of calls; the library's answers may depend on everything called before",
  ["factorio_sat/ipasir.py: IPASIRSolver", "factorio_sat/template.py: BaseGrid.check, BaseGrid.solve, BaseGrid.itersolve"])
p("A reversed balancer balances, and network create and network flip write files of balancers",
  "network create writes a file for every size from two up, and the network in it has that many inputs and outputs and divides evenly. network flip writes a file for every network file; the network in it is the reversed one with inputs and outputs exchanged, flipping it gives the network back, and if the network divided evenly then so does the reversed one, however the belts of each colour are connected and whatever arrives. For whatever arrives at a network there is a steady flow.",
  "all sizes, all network files, all orders in which Python iterates over sets, all connections of the belts of a colour, all amounts that arrive",
  "whether a reversed network balances depends on all wirings of belts with the same colour and on arbitrary amounts, and networks may contain loops",
  ["factorio_sat/network.py: main, flip_network, create_benes_network, open_network, save_network"])
p("The converting commands work line by line and undo each other",
  "blueprint encode and decode, rotate and stringifier encode print one result for every line of their input, in that order, until the input ends; the first line that cannot be converted ends them after all earlier results have been printed. blueprint encode followed by blueprint decode gives every exportable layout back, cut to what it contains; stringifier encode followed by stringifier decode gives every drawable layout back; rotate prints lines that stand for the turned layouts, moves the other members of each cell along, and turning printed lines there and back gives the same text to the character; blueprint_book pack followed by unpack gives all blueprint strings back in their order, pack prints nothing if one line is not a blueprint string; network parse writes a file that holds the network of the layout.",
  "all texts on standard input, any number of lines and with or without a line end after the last one, all layouts, all JSON spellings of a line and members beside the tile, all labels",
  "the commands read arbitrary text, and losses show only for particular combinations of lines, members and tiles",
  ["factorio_sat/blueprint.py: main, read_tile, write_tile", "factorio_sat/blueprint_book.py: main", "factorio_sat/rotate.py: main", "factorio_sat/stringifier.py: main", "factorio_sat/network.py: main"])
p("The optimum search reports a best balancer",
  "For every size that it tries, calculate_optimal asks the solver for exactly the balancers of the network of that size that belt_balancer --fast --aligned would print, so that a size is recorded as solvable exactly if there is such a balancer. When the search of a network is over, the layout reported for an underground length is one of least height and then least width, or of least area among the heights considered, among all balancers of the network with that underground length. A size that the database calls solvable has a balancer.",
  "all networks, all sizes, all underground lengths, all sequences of earlier searches for either objective, all answers of a correct solver",
  "whether a smaller balancer exists is decided by exhaustive search, and the pruning rules are right only if they never skip a size that has one",
  ["factorio_sat/calculate_optimal.py: solve_balancer, next_size, does_exist, best_solution, compute", "factorio_sat/belt_balancer.py: create_balancer, setup_balancer_ends, enforce_edge_splitters", "factorio_sat/optimisations.py: apply_generic_optimisations, expand_underground", "factorio_sat/network.py: deduplicate_network"])
p("A layout does what the network read from it does",
  "Let network parse read a network from a layout that obeys the rules of the game. Then whatever enters the layout, the amounts on the belts that bring items to its splitters and on those that take items from its splitters to the outside are those of a flow through the network. The network has as many inputs and outputs as there are such belts, and names their colours zero and one more than the number of splitters. If the network divides its inputs evenly, so does the layout.",
  "all sound layouts of any size, all orders in which the splitters are listed, all flows",
  "a reader of the network relies on it for every amount on every belt of every layout, not for the few layouts that were tried",
  ["factorio_sat/network.py: parse_network, get_input_output_colours", "factorio_sat/network.py: main (parse)"])
p("The picture of a network shows its connections",
  "network render draws a picture of every network with inputs and outputs. The picture has one box for each splitter. It shows a belt of a colour from one splitter to another exactly if an output of the first and an input of the second have this colour, it shows a belt from outside to a splitter exactly if the splitter takes the input colour, and one from a splitter to the outside exactly if it gives the output colour. The number of belts can be read from it.",
  "all networks of any size, all orders in which Python goes through its sets",
  "the picture is checked by eye for a few networks; that nothing is missing and nothing too much must hold for every network",
  ["factorio_sat/network.py: plot, get_input_output_colours", "factorio_sat/network.py: main (render)"])
p("The network commands write their output file only, and only with their result",
  "network create, network flip and network parse change no other file than the output file named on the command line. When they end normally, this file holds the text computed from the arguments and from the input as it was before the command. When they fail, all files are as before.",
  "all contents of all files, all arguments (including the same file as input and output), all texts on standard input",
  "a test runs a command on fresh files; what happens to earlier contents depends on where it fails and on which files coincide",
  ["factorio_sat/network.py: main", "argparse.FileType as used there"])
p("Layouts written by older versions can be read",
  "A cell without the member 'tile', as older versions of the program wrote them, is read as the tile that it described: empty, a belt, an end of an underground belt, half a splitter, an inserter, a part of a machine. Cells with the member are read as before.",
  "every cell of either older format, with any further members, and every layout that contains such a cell",
  "The members can come in any order and among others, in two formats with several ways to write a direction.",
  ["factorio_sat/blueprint.py: read_tile", "factorio_sat/tile.py: Belt.__post_init__, Splitter, UndergroundBelt, AssemblingMachine", "factorio_sat/direction.py: Direction"])

p("The file given with --partial",
  "belt_balancer --partial accepts a file with one layout, as a line of JSON or as a blueprint string. The layouts printed are exactly those printed without the option that have every non-empty tile of the given layout in its place. Both forms of a layout ask for the same. A file with more than one layout is refused.",
  "every network, size and combination of options, every layout that can be printed or exported, every file",
  "The file is tried in two formats and becomes clauses; the effect is on the set of all solutions.",
  ["factorio_sat/blueprint.py: convert_to_tiles", "factorio_sat/belt_balancer.py: set_nonempty_tiles, main"])

p("The blueprint of a printed balancer is a balancer",
  "If a layout printed by belt_balancer is turned into a blueprint with blueprint encode, then what is placed has the tiles of the printed layout and no others (belts fed from outside run straight), items move on it exactly as on the printed layout, and if the network is a balancer then all belts that leave it carry the same, whatever is supplied at the inputs.",
  "every balancer network, size and combination of options, every solution, every label and belt level, every steady flow",
  "It spans four programs; a blueprint does not contain where belts get their items from, which is found again from the neighbours, and positions are relative.",
  ["factorio_sat/belt_balancer.py: main", "factorio_sat/blueprint.py: make_blueprint, encode_blueprint, decode_blueprint, import_blueprint, resolve_belt_input_directions, main"])

p("The network read from a layout does exactly what the layout does",
  "If network parse reads a network from a layout, then the amounts that can flow in and out of a machine built from the network are exactly those that can flow in and out of the layout. So the network is a balancer, or divides evenly, exactly if the layout does; and the network read back from a layout that belt_balancer printed for a balancer is a balancer.",
  "every sound layout, every order in which the splitters are found, every flow through the network, every balancer network, size, combination of options and solution",
  "The claim is about all real amounts on all layouts; that the network allows nothing that the layout does not is needed to conclude something about the network from the layout.",
  ["factorio_sat/network.py: parse_network, main", "factorio_sat/belt_balancer.py: main"])

p("What a program prints for a solution is the solution",
  "A line printed for an answer of the solver shows, cell by cell, exactly the tile that the answer describes and the value of every further member of the cell's template, and it reads back as that grid. The line is printed whenever the answer has all variables of the tiles; if one is missing the program ends with a KeyError and nothing else can go wrong. belt_balancer --all prints one line for each answer, all of them wanted layouts, every wanted layout among them, and then ends; without --all it prints nothing if there is no wanted layout and otherwise one line, of a wanted layout. The same holds of belt_balancer_net_free, belt_balancer_net_free_power_of_2 and interchange; for the latter two, and for the first with equally many inputs and outputs, no layout is printed twice. If an answer cannot be printed, the lines before it have been printed and the program ends with the error.",
  "every width and height, number of colours, set of extra members with distinct names, answer of the solver, network, combination of options without symmetry breaking, correct solver that answers for all variables",
  "The text passes through the variable numbering, the reading of the answer and the JSON writer; the claim is about every template, size and answer, and for belt_balancer about the whole enumeration.",
  ["factorio_sat/template.py: BaseGrid.parse_solution, FactorioGrid.parse_cell, CompositeTemplate.parse, ArrayTemplate.parse, OneHotTemplate.parse, ManyHotTemplate.parse, NumberTemplate.parse", "factorio_sat/solver.py: Grid.itersolve", "factorio_sat/belt_balancer.py: main", "factorio_sat/belt_balancer_net_free.py: main", "factorio_sat/belt_balancer_net_free_power_of_2.py: main", "factorio_sat/interchange.py: main"])

p("A balancer printed by belt_balancer and piped into blueprint encode can be pasted and balances",
  "belt_balancer piped into blueprint encode prints nothing exactly if there is no layout, and otherwise one blueprint string. The string, pasted, places belts so that whatever is supplied at the inputs, all belts that leave the area carry the same amount.",
  "every balancer network, width and height of at least two, combination of options, correct solver that answers for all variables, label, belt level, amounts supplied at the inputs",
  "The chain runs from the clauses through the solver's answer, the printed JSON, the reading of the JSON and the encoding to what the belts do; each link is an unbounded claim.",
  ["factorio_sat/belt_balancer.py: main", "factorio_sat/blueprint.py: make_blueprint, encode_blueprint, main", "factorio_sat/template.py: BaseGrid.parse_solution"])

p("optimise_colours finds a cheapest numbering of the colours",
  "calculate_cost is the number of binary digits in which the colours of the two inputs, or of the two outputs, of a splitter differ, summed over the pairs of which one belt goes from splitter to splitter. optimise_colours returns the same network with its colours renumbered one to one by 0, 1, 2, ..., and no other such numbering has a lower cost; it returns the network itself if it is already cheapest.",
  "every network with colours that are not negative, order in which Python visits a set, correct solver (whatever model it chooses)",
  "The best numbering is a minimum over all permutations of the colours, found by a loop of solver calls over clauses with a popcount circuit; tests can compare a few networks with a few numberings only.",
  ["factorio_sat/network.py: pop_count, calculate_cost, optimise_colours, remap_colours"])

p("break_horisontal_symmetry keeps a layout or its reflection",
  "break_horisontal_symmetry(grid, min_x, max_x) compares the outer columns on the left with those on the right, entering with leaving. Of a layout and the layout reflected from left to right with its belts running backwards at least one is accepted, and columns outside the grid are reported.",
  "every grid, range of columns, assignment",
  "A symmetry breaking constraint that is not about a symmetry silently loses layouts; only a proof about all layouts and their images can tell.",
  ["factorio_sat/optimisations.py: break_horisontal_symmetry", "factorio_sat/util.py: break_symmetry"])

p("setup_balancer_ends_with_offsets puts the ends of a balancer into the given rows",
  "setup_balancer_ends_with_offsets(grid, network, start_offset, end_offset) makes the first column belts to the right with the colour of the inputs in as many rows as the network has inputs, from start_offset on, and empty elsewhere; likewise the last column with the outputs. It fails if there is no room for them.",
  "every grid, network with one input colour and one output colour, offsets, assignment",
  "The clauses must say this for all sizes and offsets; a colour set in the wrong column still gives satisfiable clauses for many of them.",
  ["factorio_sat/belt_balancer.py: setup_balancer_ends_with_offsets"])

p("What the other programs print comes back from a blueprint",
  "In belt_balancer_net_free | blueprint encode | blueprint decode, and likewise for belt_balancer_net_free_power_of_2 and interchange, nothing fails and a line comes out for each layout printed, in the same order. The decoded layout is the printed one, tile for tile, cut to what it contains; for the last two programs nothing is cut.",
  "every size, option, correct solver, label, belt level, line-free blueprint coding",
  "Whether a belt turns is not stored in a blueprint but deduced from its surroundings; that this works for every layout a program can print follows from rules that hold for all of them.",
  ["factorio_sat/blueprint.py: encode", "factorio_sat/blueprint.py: decode", "factorio_sat/belt_balancer_net_free.py: main", "factorio_sat/belt_balancer_net_free_power_of_2.py: main", "factorio_sat/interchange.py: main"])

p("simplify ends and keeps what a network does",
  "simplify(network) returns after finitely many steps a network with at most as many splitters, in which every splitter has an input and an output, none only passes items on and none takes exactly the outputs of another one. The steady flows of the two networks are the same on the belts that are left, and their inputs and outputs correspond.",
  "every network, steady flow; with and without allow_bottleneck for termination and the form of the result",
  "Each step changes the network that the next one works on; that no sequence of steps runs forever or changes the flows needs an invariant.",
  ["factorio_sat/network.py: simplify", "factorio_sat/network.py: remap_colours"])

p("query reports best balancers after any runs of compute",
  "After any number of runs of calculate_optimal compute with one underground length, each with any objective, any listing order of the directory and ended after any number of solver runs, calculate_optimal query with that length does not fail, and prints one line per network reported, in the order of the numbers of inputs and outputs. Every line is a balancer for its network, at least as good as every balancer of a size that the search considers. If the last run came to its end, query with its objective has a line for every network. With --allow-imperfect there is a line for exactly the networks with a solution in the database, no worse than the others in the database.",
  "every directory of networks with ends, history of compute runs with right solver answers, objective and listing order",
  "The database is the result of arbitrarily many interleaved solver runs and restarts; a test sees one history.",
  ["factorio_sat/calculate_optimal.py: main", "factorio_sat/calculate_optimal.py: NetworkSolutionStore", "factorio_sat/calculate_optimal.py: LengthObjective", "factorio_sat/calculate_optimal.py: AreaObjective", "factorio_sat/calculate_optimal.py: solve_balancer"])

p("Reported balancers can be pasted and divide evenly",
  "The output of calculate_optimal query, sent through blueprint encode and blueprint decode, never makes these programs fail; what comes back, in the order of the networks, are the reported best balancers without the empty rows at their sides, one for every network after a compute run that came to its end. In a reported balancer for a network that divides evenly, every output carries the same part of everything that is supplied in the first column. This holds for all networks that come with the program.",
  "every directory of networks, history of compute runs, objective, blueprint label and belt level, and every supply of items",
  "A test pastes a few balancers and supplies a few flows; the claim is about every history, every layout the solver may find and every supply.",
  ["factorio_sat/calculate_optimal.py: main", "factorio_sat/blueprint.py: main", "factorio_sat/blueprint.py: encode_blueprint", "factorio_sat/blueprint.py: decode_blueprint", "factorio_sat/belt_balancer.py: main", "networks"])

p("A turned or mirrored layout does the same",
  "Turning or mirroring a layout changes nothing about what it does: the rules of the game hold on the result if they do on the original, belts leave and enter it at the moved cells, and it carries exactly the amounts that the original carries, moved. So the output of belt_balancer can be sent through rotate and then through blueprint encode: nothing fails, and the turned layout, as well as what is pasted from the string, has its outputs at the moved outputs and carries, with items supplied at the moved inputs, what the printed layout carries.",
  "every layout, every one of the six operations, every network, size and options of belt_balancer, every correct solver, label, belt level and supply of items",
  "A test turns a few layouts and compares tiles; the claim is about every layout and every flow of items on it, and mirroring exchanges the halves of splitters.",
  ["factorio_sat/rotate.py: main", "factorio_sat/rotate.py: Operation", "factorio_sat/tile.py: Belt", "factorio_sat/tile.py: Splitter", "factorio_sat/belt_balancer.py: main", "factorio_sat/blueprint.py: main"])

p("Tidying, recolouring and network parse keep what a network does",
  "A network that is tidied (network parse does this before it writes a file) or given cheaper colour numbers still has the same number of inputs and outputs, and exactly the same amounts can flow from its inputs to its outputs; so it is a balancer exactly if it was one. The file that network parse writes for a line of solver output can be opened, its network has as many inputs and outputs as belts bring items to the splitters of the layout and take them away, and what flows through it is exactly what can flow through the layout. So when the output of belt_balancer, run for a network that is a balancer and whose splitters all have two inputs in use (or all two outputs), is sent to network parse, any file that is written holds a balancer.",
  "every network, every order of sets, every correct solver, every layout without faults and every text that stands for it, every size and options of belt_balancer",
  "A test compares one network before and after; which amounts can flow is a question about infinitely many flows, and the colours, the order of splitters and the sides all change at once.",
  ["factorio_sat/network.py: main", "factorio_sat/network.py: fix_colours", "factorio_sat/network.py: tidy_network", "factorio_sat/network.py: optimise_colours", "factorio_sat/network.py: save_network", "factorio_sat/belt_balancer.py: main"])

p("Layouts without a network can be turned and pasted",
  "When the output of belt_balancer_net_free, belt_balancer_net_free_power_of_2 or interchange is sent through rotate and then blueprint encode, both read everything and write one line for each layout, in order. What is pasted from such a line has nothing outside of the moved cells and carries exactly what the layout does, moved: the outputs of a balancer still each carry the same part of the sum of the inputs, the pairs of outputs of the inner part of a power of two balancer still have the mean of all as their mean, and each output of an interchange still carries what its input gets, in an order that mixes the two halves.",
  "all sizes and options of the three programs, every turn and mirroring, every correct and complete solver, every codec, label and belt level, one solution or all, and all amounts of items",
  "A test turns one layout and looks at the picture; that what is pasted does the same is a statement about all flows of all layouts a program can print.",
  ["factorio_sat/rotate.py: main", "factorio_sat/blueprint.py: main", "factorio_sat/belt_balancer_net_free.py: main", "factorio_sat/belt_balancer_net_free_power_of_2.py: main", "factorio_sat/interchange.py: main"])

p("The network read from a balancer found without a network is a balancer",
  "When the output of belt_balancer_net_free, run for at least two and equally many inputs and outputs, is sent to network parse, a file is written unless the layout has an underground entrance in its top row. The file can be opened and holds a network with that many inputs and outputs, which divides whatever it gets evenly between its outputs. So a balancer found without a network gives a network that can be used with belt_balancer.",
  "all widths of at least two, heights, numbers of belts from two on, underground lengths, alignments and partial layouts, every correct and complete solver, every order in which the parser goes through its sets",
  "A test parses one layout; that no input belt passes by all splitters, and that the network read divides evenly for all amounts, must hold for every layout the solver may find.",
  ["factorio_sat/belt_balancer_net_free.py: main", "factorio_sat/network.py: parse_network", "factorio_sat/network.py: main", "factorio_sat/network.py: save_network"])

p("A turned layout is read as a network that does the same",
  "When a solved layout is turned or mirrored with rotate and the result is sent to network parse, the file written holds a network with as many inputs and outputs as the layout itself has, and the amounts it can carry are exactly those the layout can carry. So the networks read from a layout and from its turned copy have the same flows, and one is a balancer if and only if the other is. Unless an underground belt begins in a cell that comes to lie in the top row, a file is written exactly when no splitter faces an empty cell. In particular the balancers that belt_balancer_net_free finds for at least two belts can be turned, and what is then read from them is a balancer; so are those of belt_balancer, under the conditions of C115.",
  "all sound layouts of any size that bring items to and take items from a splitter, all six operations, all amounts, every order in which the parser goes through its sets; for the programs, all widths of at least two, heights, numbers of belts from two on and solvers",
  "A test parses one layout and one turned copy; the order in which splitters and colours are found depends on the orientation, so the files differ and only what the networks carry, for all amounts, is the same.",
  ["factorio_sat/rotate.py: Operation", "factorio_sat/network.py: parse_network", "factorio_sat/network.py: main", "factorio_sat/belt_balancer_net_free.py: main"])

here = os.path.dirname(os.path.abspath(__file__))
with open(os.path.join(here, "..", "properties.jsonl"), "w") as f:
    for x in P: f.write(json.dumps(x) + "\n")
print(len(P))
