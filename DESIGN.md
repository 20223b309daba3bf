# Formal model of Factorio-SAT in Lean 4

## What the code is

Factorio-SAT builds a CNF formula over per-cell variables of a grid, hands it to a SAT solver and decodes the
returned assignment into a belt layout.  Around that core it has network generators/parsers, layout converters
(JSON, text, blueprints, rotations) and a search driver that stores results in a JSON database.

## Approach

* Clause generators are modelled as Lean functions producing the same clause lists (`Verif/Model/*`), one definition
  per Python function, each with a comment citing file and lines.  The meaning of a clause list is standard
  satisfaction (`Verif/Model/Sat.lean`: `Sat v cs`).
* What a property *means* is written in `Verif/Spec/*` (numbers, layouts, game connection rules, ...) without
  reference to clauses or to the generators.
* `Verif/Props/*` holds the property theorems (named `cNN_...`) with an `example` next to each showing that the hypotheses
  hold in a concrete non-trivial case; `Verif/Lemmas/*` holds helper lemmas.
* Python failures (assertions, KeyError, TypeError, StopIteration ...) are values (`Except PyErr`), so "does not raise" is
  part of the theorems.
* Variable allocation is modelled by explicit state (`pool counter` or the finite list behind `make_fixed_allocator`).
  "Up to fresh variables" means: soundness `Sat v cs -> P v`, and completeness `P v -> exists v'` that agrees with `v` on
  every variable allocated before the call and satisfies `cs`.
* Loops over the grid are `flatMap` over `List.range`; theorems are by membership in those lists and by induction where
  a path, a run of splitters, an underground run, a carry chain or a recursion is involved.  Nothing is bounded.
* Where the code violates the property, the negation is proved with a concrete witness (`cNN_..._refuted`) and the true
  fragment is proved under the suffix `_partial`.

## Literals

A Python literal is a non-zero int `k`; the model uses `Lit = (var : Nat, pos : Bool)` with `|k| = var`, `k > 0 = pos`, and
`neg` for unary minus.  `Verif/Model/Ipasir.lean` relates this to signed ints with the 0 terminator.

## Trusted base

* Lean 4.33.0's kernel.
* Axioms: only `propext`, `Classical.choice`, `Quot.sound` (a subset per theorem; listed by `#print axioms`).  No own axioms, no
  `sorry`, no `native_decide`/`bv_decide`.
* The reading of the Python code recorded in the citations of the model.
* External code that is *assumed*, always as an explicit hypothesis or parameter: SAT solvers answer correctly
  (`itersolve`), pysat's `CardEnc` encodings mean their cardinality constraint (`create_balancer`, interchange, power of 2),
  numpy indexing/rot90/flip, zlib/base64 being inverse pairs (`Codec`; JSON itself is modelled in `Model/Json`, for values without floats
  other than halves), asyncio switching tasks only at `await`.

## Not modelled

`tilemaps.py`, `assets/`, `fetch.py`, the placement of the picture of a network by graphviz and the OpenGL calls of `render.py` (what is drawn where, in which colour and which frame is modelled,
pixels are not; float arithmetic of colours and text sizes is exact rational arithmetic in the model), argparse wiring (except where a property is about an option),
functions that nothing calls (`write` and `total_variables` of templates), subprocess/ctypes plumbing, memory layout of numpy arrays, `StackTracingList` (debug aid), float rounding (blueprint positions are
modelled in exact half-units; all of them are representable exactly as floats).

## Plan per property

| id | model | proof |
|----|-------|-------|
| C01 | `Model/Util.addNumbers` with allocator state | induction on bits, carry invariant |
| C02 | `sumNumbers` | induction on operands, uses C01 |
| C03 | `getPopcount` | strong induction on length, uses C01 |
| C04 | `incrementNumber` | induction over prefix-and |
| C05 | `setMaximum` | induction on bits from the top |
| C06 | `setNumber`, `setNotNumber`, `readNumber`, `getBits` | induction on width |
| C07 | `setNumbers`, `setNumbersEqual` | correlated/anti-correlated bits, list extensionality |
| C08 | `invertNumber` | complement + adder |
| C09 | `Model/Cardinality` | quadratic: pairs; heule: well-founded induction on length |
| C10 | `logarithmicAmo` | refuted by all-false; partial: equals exactly-one |
| C11 | `breakSymmetry`, `breakVerticalSymmetry`, `Spec/Mirror` | induction on list; totality of lex order; every constraint is invariant under the mirror image, which exists because the variables of the cells are free |
| C12 | `implies` etc. | direct |
| C13 | `Model/Template` | induction on template tree |
| C14 | `getTileInstanceOffset` | integer arithmetic |
| C15-C18, C20-C24 | `Model/Solver` | characterise each method's clauses at tile level, then decode |
| C19 | as C18 | refuted with a two-tile witness; partial: belts/splitters |
| C25 | `Model/Itersolve` nondeterministic oracle | invariant on history, finiteness of projections |
| C26 | Grid base clauses | induction along splitter runs |
| C27, C28 | `Model/BeltBalancer`, `Model/Network` | clause semantics + counting |
| C29, C30 | `Model/NetFree` | C01 + arithmetic |
| C31 | `Model/PowerOfTwo` | bit-set algebra |
| C32 | `Model/Interchange.flowCounts` | arithmetic |
| C33, C34 | `Model/MakeBlock`, `Spec/Loop` | numbers of the cells grow by one along the belts, so every cell is reached from the first one; refuted for lengths 1-3 without --single-loop |
| C35-C39 | `Model/Network` | induction |
| C40-C42 | `Model/Tile`, `Model/Rotate` | finite case analysis over directions, arithmetic over positions |
| C43 | `Model/Stringifier` | list induction |
| C44-C47 | `Model/Blueprint` | fold invariants |
| C48-C55 | `Model/CalculateOptimal` | invariants; interleavings as traces; crash prefixes |
| C56, C57 | `Model/CommandSolver`, `Model/Ipasir` | list/token induction |
| C58 | all Grid methods | build an assignment from a layout |
| C59 | `Model/Optimisations`; patterns in `Spec/Optimise` | each generator's clauses hold exactly when no place shows the pattern; the generator for belts along splitters refuted and partial |
| C60 | `Spec/Optimise.fillSpan` | local rewriting proved to keep the rules, the boundary and the colours; induction on the number of spans; refuted where a splitter half points at the span |
| C61 | `iterateTileBlocks` | refuted with witness; partial without bounds |
| C62 | `Model/ParseNetwork`, `Spec/Parse` | a trace colours the whole belt line (invariant: colours are constant along lines, equal colours only on one line); every end of a splitter gets the colour of what it is connected to; the numbering is read off the dictionary; both failures refuted with concrete layouts |
| C63 | `Model/Network.createBenes` | strong induction on size: path upper bounds and conservation force equal outputs |
| C64 | `Model/Network.tidyNetwork` | renaming + permutation; stable sort invariant |
| C65 | `Sys.run`, `databaseOf` | refuted: the file has the members of the directory only; partial |
| C66 | `Model/Crosstable.getBeltLevel` | case analysis |
| C67 | `Model/Crosstable.tableCell`, `exportCrosstable` | exact meaning by cases over three answers; the file is described as Markdown tables in `Spec/Crosstable`; stronger reading refuted |
| C68 | `Model/Crosstable.exportCrosstable` | lines of a text; refuted without final newline; partial |
| C69 | `Model/Crosstable.sortStores` | total preorder, merge sort |
| C70 | `Model/Blueprint.importBlueprint` | refuted by two belts facing each other; exact condition as partial |
| C71 | `Model/Blueprint.makeBlueprint` | loop invariant over the cells |
| C72 | `Model/Blueprint.encodeBlueprint` | JSON round trip; zlib and base64 as a parameter `Codec` |
| C27 | `Model/Library` (cardinality library as a parameter), `Model/BeltBalancer` | compositional statement `GenEnc` for clause generators with a pool of fresh variables; labels read off the one-hot node fields; parity of the cells counts every splitter once; refuted for connections between adjacent splitters |
| C28 | `Model/BalancerEnds` | fresh offset variables as existential witnesses; exact statement for each of the four functions; refuted for the last position |
| C29 | `Model/NetFree`, `Spec/LayoutFlow` | the numbers of the assignment are steady flows, one for each input; a no-growth argument (absolute values, sum over all cells) shows that inputs determine the outputs of a steady flow, so every flow is a combination of those |
| C30 | `Model/NetFree`, `Model/NetFreeMain`, `Lemmas/Reverse` | as C29, with a choice of the connections between touching splitters; the direction from outputs to inputs by reversing the layout; refuted for the printed layout by a concrete 2 to 4 balancer that satisfies all clauses of the program |
| C31 | `Model/PowerOfTwo`, `Spec/Mixing` | colours read as sets of inputs; the average over the set of a belt is a steady flow, and inputs determine the flow; example for eight belts by completeness of the clause semantics |
| C73, C74 | `Model/MakeBlock`, `Spec/Loop` | meaning of all clauses (`Means`), then a solution is built from the layout, with the positions on the loop as numbers; C74 refuted with --tile |
| C75 | `Model/MakeBlock.preventParallel` | refuted: TypeError (a Direction is added to an int) |
| C76 | `breakVerticalSymmetry`, `setupBalancerEnds` | refuted: the last row is never used, so the first one is forbidden; proved when the ends fill the columns |
| C77 | `Spec/NetworkFlow`, `Lemmas/NetworkFlow` | amounts are constant along belt lines; summing over the cells of a colour gives the multiset equation of the network; refuted for splitters that touch by a concrete layout, its flow checked by the kernel; where all splitters have two outputs, or all have two inputs, two that touch are connected in the network as well (`Props/BalancesUsed`) |
| C78 | `createBalancer` | each assertion and each call of the library is shown to succeed; converse by reading off the failures |
| C79 | `Model/BalancerMain`, `Spec/BalancerMain` | each part of the clauses means one clause of the specification (`Lemmas/BalancerMainParts`); completeness draws the cells from the layout, colours the empty ones, and extends the assignment library call by library call |
| C80 | `enforceEdgeSplitters` | refuted: one splitter would have to be in two columns; kernel-checked solution without the option |
| C81 | `Model/InterchangeMain`, `Spec/Interchange` | each part of the clauses means one field of `IsInterchange`; the cut constraints are shown to hold for every interchange by counting belts across cuts (`Lemmas/Conserve`, `Lemmas/Transport`), so completeness extends the drawn cells by the edge variables |
| C82 | `Spec/Interchange` (`Routed`) | the follow relation is injective and functional on a splitter-free layout; a walk that starts outside a cycle in a finite set ends, and can only end at the right edge |
| C83 | `itersolve`, `interchangeMain` | C25 and C26 for these clauses, and C81 |
| C84 | `freeBalancer`, `freeBalancerMain`, `Spec/NetFree` | every clause group gets an assignment from the shares (`Lemmas/NetFreeFill`: carries, sums, differences), on top of the drawn cells; idle splitters are replaced by belts (`Lemmas/IdleSplitters`); a concrete ten by four layout for the refutation |
| C85 | `Model/RenderLoop`, `Spec/RenderLoop` | an invariant of the event loop (`ViewInv`) kept by every event and every round; --export-all by a measure on rounds (`Lemmas/RenderRounds`) |
| C86 | `createPalette`, `palette` in `Model/Render` | hues of the palette form a ring on which the six pieces of the HSV conversion are injective (`Lemmas/RenderColours`) |
| C87 | `animationLength`, `renderTile` | periods of the sheets divide the length; two frames that differ in one cell for the lower bound |
| C88 | `renderSolution`, `Spec/Render` | case analysis over tiles (`Lemmas/RenderTiles`), membership and order in the list of drawn marks |
| C89 | `Model/RenderText`, `Spec/RenderText` | induction over the pieces of the name; scaling by the largest width and height |
| C90 | `createPower`, `powerBalancerMain`, `Spec/Power` | soundness from C31; completeness draws the layout with the sets as colours and the stages as levels (`Lemmas/PowerExact`), and the clause groups are equivalences already |
| C91 | `createNToM`, `freeBalancerMain`, `Spec/NetFreeMix` | soundness from C30 and the top-bit and difference clauses (`Lemmas/NetFreeMixExact`); completeness draws the layout with the flags of the given connections, the shares as flows and their carries (`Lemmas/NetFreeMixFill`, `Lemmas/NetFreeMixComplete`) |
| C92 | `freeProgram`, `powerProgram`, `balancerMain`, `itersolve` | the exactness theorems C79, C84, C90, C91 with C25 and C26 (`Lemmas/Enumerate`); no layout twice because the layout determines the flow flags where every splitter is full; two solutions with one layout for the refutations |
| C93 | `shippedNetworks` (the files themselves), `openNetwork`, `getInputOutputColours`, `flipNetwork`, `Spec/DividesEvenly` | linear combinations of the equations of a flow show, colour by colour, that the largest difference between two belts is at most a fraction of itself (`Lemmas/NetworkCheck`); the kernel checks the combinations for each file (`Lemmas/ShippedChecked`) |
| C94 | `Model/LibSolver`: the object of `ipasir.py` with the list of all native calls, `libSolve`, `libItersolve`; the library is a parameter (`NativeLib`, `NativeLib.Correct`) | invariant over the calls (`Lived`, `Told`); the library's answers along the run make a correct `Oracle` (`oracleOf`), so C25 and C26 apply |
| C95 | `Model/NetworkMain`: the modes `create` and `flip` of `network.py`, on the texts of the files | a wiring is a bijection between belt starts and belt ends; forward flows exist because a backward flow with nothing fed in brings nothing out (sum of squares) and by duality; summing forward times backward amounts over all belts gives reciprocity |
| C96 | `Model/Commands`: the main programs of `blueprint.py`, `blueprint_book.py`, `rotate.py`, `stringifier.py` and the mode `parse` of `network.py`, as functions from the text on standard input to the text they print and the way they end | lines that stand for a layout are defined by what JSON they hold, not by how it is spelled; induction over the lines; the printer never emits a line end, what the reader returns can be printed and read again |
| C97 | `Model/SolveBalancer`: `solve_balancer` up to the solver, with the model of the search of C51; `Spec/SolveBalancer`: what a balancer of a size is, on a box of cells, the sizes considered, and the stores that histories of searches arrive at | the clauses are the parts of `belt_balancer --fast --aligned` in another order of variables (`MainParts`); an invariant of the store that does not need upward closure; counting the cells of splitters between the first and the last column; two concrete networks for the refutations |
| C98 | the model of `parse_network` of C62; `Spec/ParseFlow`: belts that bring items to splitters and take items from them; flows on layouts (`Steady`) and through networks (`NetworkFlow`, C77) | the colours that C62 gives for the ends of splitters extend to all cells and are constant along belts, so that the argument of C77 (`Tracks.networkFlow'`, now without the assumption that every belt from outside leads to a splitter) applies |
| C99 | `Model/Plot`: the nodes and arrows that `plot` hands to graphviz, by name; `Spec/Plot`: what a reader sees | invariant of the dictionary of occurrences; exact list of the arrows for each colour; names of different things differ; two refutations with concrete networks |
| C100 | `Model/NetworkFiles`: `main` of `network.py` as a function on the contents of files, files being opened in the order of the arguments | cases over the commands; refutations for all contents |
| C101 | `Model/OldFormats`: `read_tile` with its branches for older formats; `Spec/OldFormats`: cells of these formats, by the members that they have | evaluation of the branches on any dictionary with the members; the refutations hold for every belt |
| C102 | `Model/PartialText`: `convert_to_tiles` and `belt_balancer --partial` on text, on top of the models of C44, C79 and C96 | round trips of JSON and blueprints with text after them; the exactness theorem of C79 with the partial layout split off |
| C103 | the models of C44, C72, C77, C79 and C96 together; `LayoutCopy`: a copy of a layout that has the same connections | the recomputed inputs of belts agree with the solver's where something feeds the belt (C45); flows are the same on copies |
| C104 | the models of C62, C77, C79 and C98; `amountAt`: the amount that a flow through the network puts on a cell of the layout | a cell gets the share of the splitter that it is reached from, or what the slot of the splitter that it leads to gets; both agree on inner connections because a colour stands for one splitter's outputs; with C98 this gives the equivalence, and for printed layouts the conclusion of C77 carries over |
| C105 | `Model/PrintSolution`: reading an answer back through the template into JSON (`readParsed`, `parseSolution`), the printed line, `balancerRun` | monotonicity of the reading in the answer; the only error of the reading is a missing variable; the last variable of the grid occurs in the clauses of `belt_balancer`, so an answer for all variables has them all; then C92. The other programs (`Model/PrintPrograms`) by one lemma about a grid, its clauses and the layouts wanted; a clause mentions the last variable of the tiles because of the colours, the levels or the offsets |
| C106 | the models of C103 and C105 | composition of `balancer_prints`, C96, C103 and C77; a printed layout has at least one splitter because its network has one |
| C107 | `Model/Recolour`: `popCount`, `calculateCost`, the clauses of `optimise_colours` and its loop over an incremental solver, for every order of the set of colours | meaning of the clauses (C03 and C06) as a numbering of this cost, both directions; induction over the loop with the least cost as invariant |
| C108 | `Model/EndsOffsets`: `breakHorisontalSymmetry` over the lexicographic comparison of C11 | the two lists of literals are the two ends of the layout; comparison is total; a U-turn as a counterexample |
| C109 | `Model/EndsOffsets`: `setupBalancerEndsWithOffsets` | meaning of `set_tile` and `set_colour` (C22), exactness of the rows; counterexamples for the misplaced colour |
| C110 | the programs of C105 and the commands of C96 | belts fed from outside run straight, by the rules about the outer columns; then C45 restores every tile |
| C111 | `Model/Simplify`: the rounds of `simplify`, with the order of sets as a parameter | every round removes a node; each of the four kinds of rounds keeps flows, single ends and the correspondence of inputs and outputs |
| C112 | `Model/Query`: start-up, sorting and the loop of `query` as a program that prints text; `compute` as in C53 | invariant of the database over histories of programs: every store is one that right answers lead to (C97), and its solutions are balancers; the loop prints the filtered stores |
| C113 | `Model/Query`, `Model/Blueprint` and their programs, with the layouts of C77 | C112 and C107 composed; links between splitters in a layout are those of the network when no splitter has a side unused at the front, or at the back (counting); the networks of C93 are checked one by one |
| C114 | `Model/Tile`, `Model/Commands` (rotate), `Model/Blueprint`, with the flows of C77 | neighbours, connections, underground and splitter pairs of the turned layout are those of the original, moved (a mirroring exchanges the halves of splitters); the rules are carried over from the grid to the array, through the operation and back to a grid |
| C115 | `Model/Network` (tidyNetwork), `Model/Recolour`, `Model/Commands` (network parse), with the flows of C77 | a flow is carried along a renaming that is injective on the colours in use, along permutations of the splitters and exchanges of their sides, and back along an inverse; with C98 and C104 for the layouts |
| C116 | `Model/Commands` (rotate, blueprint encode) on the outputs of C105, `Spec/TurnedPasted` | line by line with C114 (flows of a turned layout) and C113 (a pasted layout is a copy); then the theorems of C29 and C31 and the routes of an interchange on the layout |
| C117 | `Model/NetFree`, `Model/ParseNetwork`, `Model/Commands` (network parse) | a belt from outside reaches a splitter or leaves again with the same items (`Lemmas/BeltEnds`), which the flow with a single input contradicts; then C29 for the amounts and C115 for the file |
| C118 | `Model/Commands` (rotate, network parse), `Model/ParseNetwork` | turning keeps a layout sound and moves the belts that bring items in and take them out (`Props/TurnedParse`); then C115 for the turned text |
