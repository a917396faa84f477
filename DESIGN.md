# Formal model of `opt::option`

Subject: `/repo/include/opt/option.hpp` (header-only C++17/20 library, 4100 lines) and `option_fwd.hpp`. Line numbers in
this file and in the Lean comments refer to `option.hpp` unless another file is named. The code was read as text; it was
neither built nor run. The Lean project is `/verif/lean` (Lean 4.33.0, no Mathlib import, no `require`).

## 1. How the model is built

The library is modelled on two levels, which meet in the element type `Ty`.

**Byte level** (`Model/Traits`, `Bytes`, `EnumReflect`, `Strategy`, `Special`, `AsOption`, `NestedOps`). The storage of a
C++ object is a list of bytes. `Ty` is an inductive universe of C++ types: one constructor per trait strategy of the
library (float, pointer, bool, enum in four kinds, string in five layouts, vector, string_view, PADDING, polymorphic,
member pointers, sentinel, pair, tuple, reference_wrapper, smart pointers, nested option, option of a reference), types
without levels, and user specialisations of `option_traits`. Layout numbers (sizes, alignments, offsets) are data, so the
results hold for every ABI with pointers of 32 or 64 bits. `get_level` and `set_level` are transcribed with their constants in
bit-vector arithmetic of the width the C++ expression has. `option<T>` is bytes plus a flag byte where the library uses
one.

**Machine level** (`Model/Machine`, `Api`, `Compare`, `Iter`, `Access`, `Unzip`, `History`, `RefOption`). A program is any
number of option objects at addresses, each of some class `option<T>`. An option object is its bytes and a ghost bit: is
a `T` within its lifetime in the union member. Everything that is user code (constructors, destructor, assignment,
`swap`, callables, comparison operators of `T`) is a parameter of the program (`Prog`): which call throws, which bytes
a constructor, a throwing constructor or a destructor leaves, the value of a moved-from object. Nothing is assumed about
these parameters except what C++ or the type traits guarantee (`Prog.OK`). Every call of user code is written to a log.

**Outcomes.** A computation ends in `ok`, `throw` (a C++ exception; the state keeps its changes), `verify` (the condition
of an `OPTION_VERIFY`, 190-233, is false: a trap in checked builds, an optimiser assumption in others) or `ub`
(behaviour that C++ leaves undefined and the library does not check: use of a `T` outside its lifetime, construction
over a live object whose destructor is not trivial, reading a flag byte that is not a `bool`, a second exception during
unwinding, use of an option object that does not exist, signed overflow in the enum traits).

**Specification.** Independent of the byte machine there is a small abstract machine (`Spec/Optional`, `OptionalApi`,
`Unzip`): a map from addresses to `Option Val`, the log and the call counter. The central result is a refinement (`R`,
`Lemmas/*Sim`): every operation of the byte machine, from every state that satisfies the representation invariant, ends as
the abstract operation says and re-establishes the invariant. If the abstract operation is undefined nothing is claimed.
The property theorems do not mention the abstract machine: they are stated with `P.Ends w (op w) r evs m` (the operation
completes with result `r`, exactly the calls `evs` were added to the log, the options are now `m`), `P.Throws` and
`P.Yields` over `P.view w i` (what `has_value()` and `get()` show), see `Spec/View`, `Spec/ViewApi`.

## 2. Modules (under `lean/Verif/`)

| modules | contents |
|---|---|
| `Model/Res`, `Mon` | outcomes, the state-and-outcome monad |
| `Model/Bytes` | bytes, `memcpy`, little-endian words (769-795) |
| `Model/Traits` | all internal traits, `Ty`, sizes, `option<T>` as bytes (1140-1786, 3275-3321, 3930-4050) |
| `Model/EnumReflect` | `max_enum_value` with its four text scanners (845-920) |
| `Model/Strategy` | `dispatch_specializations`, `detemine_option_strategy` (954-1138) |
| `Model/Special` | selection of `option_base` and `enable_copy_move` (2134-2399) |
| `Model/Machine` | `construct_at`, `option_destruct_base` x4, `option_base`, constructors, assignments, modifiers (649-668, 1908-2280, 2832-3056, 3252-3269) |
| `Model/Api` | observers, monadic members, `zip`, `zip_with`, operators, io (2537-2645, 3018-3250, 3344-3381, 3515-3574, 3627-3731) |
| `Model/Unzip` | `unzip` (1797-1817, 3416-3439) |
| `Model/Compare` | comparisons and `std::hash` (3738-3895, 4070-4093) |
| `Model/Iter` | `option_iterator`, `begin`, `end` (2404-2506, 2979-2994) |
| `Model/Access` | `copy_reference`, `at`, `at_front`, `at_back`, `lookup`, `get` (1849-1881, 3441-3513, 3576-3625) |
| `Model/AsOption`, `NestedOps` | `as_option` (3392-3399), nested destruction and `flatten` (3406-3414) |
| `Model/RefOption` | `option<T&>` (2285-2329 and the reference branches) |
| `Model/History` | sequences of operations |
| `Model/Noexcept` | exception specifications (2134-2280, 2640-2644, 2979-3269, 4070-4093) |
| `Model/NestElem` | `option<T>` as element type: its constructors, destructor and assignments as the user code of the outer option (1908-2280, 2812-2977, 3275-3306) |
| `Model/RefBind` | which expressions an option of a reference accepts and what it is bound to (2285-2329, 2742-2789, 2842-2867, 2913-2977, 3002-3016) |
| `Model/Accessor` | types and categories of the expressions accessors, `value_or` and callables deal with (2979-2994, 3059-3218) |
| `Model/Invoke` | `impl::invoke` (613-647) |
| `Model/Flatten` | types and categories in `flatten` (3405-3414) |
| `Model/GetType` | `get<T>` on options of tuples (3451-3460, 3473-3480) |
| `Model/Braces` | overload resolution for `o = {}` (2903-2918) |
| `Model/Typestate` | consumed annotations (280-293, 2794, 2832-2915, 3001-3035, 3059-3120) |
| `Model/Pure` | `OPTION_PURE` (98-102 and the functions that carry it); user code called by `at`, `at_front`, `at_back` (3576-3600); conversions in `construct` of references (2306, 2326) |
| `Model/IterProg` | client programs over iterators (2404-2506) |
| `Model/CmpNested` | comparison of options of different depths (3738-3785, 3836-3895) |
| `Model/Build` | configuration macros, `OPTION_VERIFY`, `throw_bad_access` (18-69, 120-233, 2523-2529) |
| `Model/PaddingBits` | `padding_member` for bit-fields and `bool` (1497-1512) |
| `Model/Manual` | constraints with the kind of the first argument; missing members of enablers; types (2647-2789, 2842-2901, 2931-2953, 3271, 3374-3381, 3416-3439, 4053-4081) |
| `Model/IntSentinel` | `sentinel` of an integer type, constants of other integer types (3930-3969, 1775-1786, 2010-2048) |
| `Model/Wrapper` | constructors and assignment of the wrappers, as decisions about one argument (3898-3932, 3969-3970, 4011-4012, 4031-4032) |
| `Model/ConstParts` | const members; compiles or not (815-831, 994-1138, 1281-1342, 1596-1611, 3275-3306) |
| `Model/Natvis` | the debugger visualizer (`debugger/option.natvis` 1-230) |
| `Model/ConstEval` | options in constant expressions (option.hpp 190-256, 649-668, 1908-2329, 2537-3270 once more, for the rules of constant evaluation) |
| `Model/ResultType` | deduced and returned types: deduction guide, `make_option`, `map`, `and_then`, `zip`, `zip_with`, operators (option.hpp 2550-2569, 3271-3272, 3328-3372, 3627-3731) |
| `Model/X86`, `Model/Codegen` | instructions, and the disassembly expected by test/codegen/sample.cpp for functions on options |
| `Model/CodegenRun` | test/codegen/run.py 35-182 |
| `Model/CodegenSample` | the lines of test/codegen/sample.cpp that contain `//$` |
| `Model/CmpSelect` | option.hpp 3738-3895 as overload sets, [over.match.oper], [over.match.best], [temp.func.order] |
| `Model/Alias` | option.hpp 2285-2329, 2537-2645, 2874-2977, 3018-3269, 3738-3895 for `option<T&>` bound to values in options |
| `Model/Examples` | examples/check.py |
| `Model/SentinelF` | `sentinel_f` and the instantiation of its function templates |
| `Model/Benchmark` | benchmark/generate.py |
| `Model/CMake` | CMakeLists.txt, the CMakeLists.txt of test, test/codegen, examples, benchmark; cmake/clang_tidy.cmake, option-config.cmake.in |
| `Model/TupleLike` | how the level gets into a tuple-like type (703-706, 816-831, 921-952, 1596-1611) |
| `Model/AggInit` | which initialisation the operations use (649-668, 1818-1840, 1919-1932, 1959-1972, 2015-2034, 2066-2085, 2537-2548, 2652-2739, 2842-2931, 3002-3016) |
| `Model/Reentrant` | the operations with callables that are client programs themselves (2404-2506, 2550-2630, 3043-3048, 3356-3372) |
| `Model/Overload` | constraints of constructors and assignments from `option<U>`, overload resolution (1818-1840, 2647-2729, 2842-2977) |
| `Spec/*` | specifications, written without the model's helpers; `Spec/Demo` has the sample programs of the examples |
| `Replay/*` | expectations of the library's own tests (test/lifetime, special_traits, special, meta) computed in the model. These are tests of the model, not proofs, and no claim rests on them |
| `Lemmas/*` | helper lemmas |
| `Props/*` | the property theorems, each with a concrete case beside it |

## 3. Hypotheses that occur in the theorems

* `P.OK` (`Spec/ProgOK`): pointer width 32 or 64; the element types satisfy the traits law (`Ty.WF`, and for user
  specialisations `LawfulTraits`); objects have at least one byte; `is_trivially_copy_constructible` implies a trivial
  destructor (as in C++); scalars are trivial; user constructors and assignments produce live objects with the intended
  value and stay inside their storage; moved-from objects are live; conversions give values of the target type.
* `P.Inv w`: the state is one the library maintains. It holds initially and every operation preserves it (C15).
* `FitAt` / `ThrowSafe`: if a constructor throws inside the storage of an option without a flag, it leaves the sentinel
  bytes. It is satisfied whenever the call does not throw, for options with a flag, and for trivial constructors. It is
  needed: see finding 2.
* `Balanced`: C++20, or no type with trivial move assignment and a non-trivial destructor. Needed for C16: see finding 3.
* `Ty.Exact`: no `PADDING` narrower than `int`, no reflected enum over `bool`. Needed for C01, and for C03 beyond `cap` layers: see findings 1, 15.
* `Ty.Tight`: each empty level has one representation. Needed for C35: see finding 29.
* `Legal`, `RetIn`, `Dom`: arguments and results of user code are values of their types.
* `TypeInfo.Real`: facts about a type that C++ guarantees (a `bool` has size 1, an enum is not a class, ...).

Each hypothesis is met by a concrete case beside the theorems. The violations below show what happens without it.


## 4. Per property: what is modelled, how it is proved

Status: **proved** = the full statement of `properties.jsonl`; **partial** = a stated part of it, with what is missing or violated in the last column. Theorem names are in `MANIFEST.json`; all are in `lean/Verif/Props/`.

| id | title | status | modelled by | proof | what is missing or violated |
|---|---|---|---|---|---|
| C01 | Empty levels round-trip | partial | `Traits`: all `get_level` / `set_level` | induction over `Ty`, one lemma per leaf (bit vectors), the composites by the chosen member | false for `PADDING` of 8 or 16 bits and for enums over `bool` (two `violated` theorems); all types: the first `cap` levels |
| C02 | No live value looks empty | proved | `Traits`, `Ty.Valid` | induction over `Ty`; `storeValue`, `inPlace` over any bytes; depth by induction | — |
| C03 | Nested options of any depth keep all states apart | partial | `nest n T` | induction on the depth, any number of layers, beyond the number of levels | types whose nesting is well-formed: all `Exact` types to any depth, all others up to `cap` layers; false for enums over `bool` (witness) |
| C04 | option adds no size exactly when T has spare levels | proved | `Ty.size`, `Ty.align` | case analysis and induction on the depth, for every type | — |
| C05 | Composite types use a member with the most spare levels | proved | `index_of_max`, `find_max_level`, pair and tuple traits | loop invariant by induction on the member list | — |
| C06 | Floating-point empty states are NaNs only | proved | float traits | arithmetic over all 2^32 and 2^64 patterns | — |
| C07 | Pointer empty states are non-canonical addresses | proved | pointer traits, 64 and 32 bits | arithmetic over all addresses, 48- and 57-bit canonical form | — |
| C08 | Reflected enums never lose an enumerator | proved | enum traits with any list of enumerators | `OrOf` closure below the rounded power of two | — |
| C09 | Enum name scanning finds the largest enumerator | partial | the four scanners over arbitrary texts | induction over the printed list, any length up to 65536 | Clang > 12: topmost candidate in an anonymous namespace is missed (witness); GCC: template scopes with `, (` are miscounted (witness) |
| C10 | Rounding to a power of two is exact in the supported range | proved | `round_up` | arithmetic for 1..65536; `C10_limit` shows it fails beyond | — |
| C11 | Enum SENTINEL ranges are disjoint from other enumerators | proved | SENTINEL, SENTINEL_START, SENTINEL_END, all widths and signs | arithmetic; overflow of `int` is a separate predicate | — |
| C12 | opt::sentinel values are exactly the empty states | proved | `opt::sentinel` with any list of values | induction over the list; repeated values collapse | — |
| C13 | PADDING member gives as many levels as it promises | partial | PADDING member at any offset, as a whole member, a bit-field of any width and position, or a `bool` (`Model/PaddingBits`) | arithmetic; bit-fields bit by bit | 8- and 16-bit PADDING, bit-fields and `bool` advertise more levels than they have (violation for every layout) |
| C14 | std::string empty states are unreachable by live strings | proved | string layouts of libstdc++, MSVC (two), libc++ (two) | arithmetic over all representations of live strings | — |
| C15 | Any history of operations behaves like an optional value | partial | `Op` (construction, assignment, observers, monadic operations, operators, zip, unzip, comparisons, hash, iteration, stream io), `Prog.run` | invariant + refinement, induction over the history | a failing constructor in the storage of an option without a flag must leave the sentinel (`AllHarmless`); C15_first_failure says without this condition how far the refinement goes |
| C16 | Contained objects are constructed and destroyed exactly once | partial | log of the machine, `Life.run` | induction over the history | false in C++17 for trivially move assignable types with a destructor (witness); `Balanced` and `AllHarmless` |
| C17 | A throwing constructor leaves the option empty | partial | all constructing operations | per operation by refinement | false for options without a flag when the constructor overwrote the sentinel (two witnesses), and for options of options (finding 35); `C17_exact_*` say exactly when; `FitAt` |
| C18 | Special members are trivial exactly when documented | proved | `option_base`, `option_destruct_base` selection | full table of 1024 rows | — |
| C19 | Special members are deleted exactly when documented | partial | `enable_copy_move`, `resolveMove` | full table | a copy-only `T` is silently copied by a move (witness) |
| C20 | Assignment and construction cost exactly the necessary T operations | partial | all modifiers | exact list of calls per operation | C++17 temporaries add a destructor call (witness), otherwise for all programs |
| C21 | Self-assignment and self-swap are safe | proved | self copy, self move, self swap | from the invariant, for all programs | — |
| C22 | swap exchanges states | proved | `swap`, also of different types | four cases | — |
| C23 | take and take_if move the value out and leave the source empty | proved | `take`, `take_if` | cases, any callable | — |
| C24 | Accessors agree | proved | `has_value`, `get`, `get_unchecked`, `value_or_throw`, `ptr_or_null` | cases | — |
| C25 | Fallback accessors choose correctly | proved | `value_or`, `value_or_construct`, `map_or`, `map_or_else` | cases, both value categories | — |
| C26 | and_then and map obey the monad and functor laws | proved | `map`, `and_then` with any callables | laws stated on views and logs | — |
| C27 | filter, or_else, inspect, has_value_and | proved | `filter`, `or_else`, `inspect`, `has_value_and` | cases | — |
| C28 | Comparisons between options are a consistent order | proved | six operators over any relation table | lifting lemmas for orders; nesting by induction | — |
| C29 | Mixed comparisons agree with option comparisons | partial | mixed operators | equality with the lifted relation | values that are options themselves (C29_violated_option) |
| C30 | Equal options hash equally | partial | `std::hash` | cases; nesting by induction | `option<T&>` hashes the pointer but compares values (witness) |
| C31 | An option is a range of zero or one element | proved | `option_iterator` over a pointer model | arithmetic; loop by execution for both states | — |
| C32 | zip and unzip | proved | `zip`, `zip_with`, `unzip` for any number of elements | induction over the list of options | — |
| C33 | flatten collapses any nesting depth | proved | `flatten` to any depth | induction on the depth | — |
| C34 | from_nullable and ptr_or_null are inverse | proved | `from_nullable`, `ptr_or_null` | cases | — |
| C35 | as_option recognises exactly the empty representations | partial | `as_option` | induction over `Ty` (`Tight`) | `string_view`: the length is ignored (witness, and the exact rule); sentinels with a coarse `==` (exact rule) |
| C36 | Element lookup never goes out of bounds | proved | `at`, `at_front`, `at_back`, `lookup` | cases; all sizes and indices up to 2^64-1 | — |
| C37 | Operators \|, \|=, & and ^ obey their algebra | proved | the operators, all value categories | cases; laws on views | — |
| C38 | io writes and reads the contained value or the fallback | proved | io wrappers | cases, throwing streams | — |
| C39 | Options of references rebind and never write through | proved | `option<T&>` machine with referent memory | simulation, induction over histories | — |
| C40 | Converting construction and assignment from option<U> | proved | converting constructors and assignments | cases | — |
| C41 | Trait selection is total and never violates its size requirements | proved | strategy selection | equivalence with a table of documented conditions, for all facts C++ allows | — |
| C42 | Result reference kinds never dangle into rvalue copies | proved | `copy_reference`, `copy_lvalue_reference` | full table | — |
| C43 | option_cast converts exactly the contained value | proved | `option_cast` | cases; composition | — |
| C44 | opt::get on options of tuples and on variants | proved | `get<I>`, `get<T>` on options of tuples and on variants | cases | — |
| C45 | Destroying an option destroys its value exactly when engaged | proved | destructors, also through nested options | induction on the depth | — |
| C46 | Exceptions from callbacks do not corrupt the option | proved | throwing callables in all members | cases | — |
| C47 | Exception specifications are honest | partial | `Model/Noexcept`: the exception specifications as functions of what `T` declares, over the machine | one structural rule per operation (`Esc`): the log grows, an exception needs a failing call in a given set | `swap` (finding 31) |
| C48 | Initialising option<T> from option<U> chooses like std::optional | partial | `Model/Overload`: the constraints and overload resolution over arbitrary facts about `T` and `U` | cases | C++17 aggregates (finding 33) |
| C49 | Emplacing an option from its own value | proved | `emplace`, `try_emplace` with the option itself as source | refinement does not apply (the source changes under way); direct execution of both machines | — |
| C50 | Exceptions come from user code and reach the client | proved | every operation of `Model/History`, any state | structural rules (`Clean`, `Silent`, `Fails`) counting failing calls; induction over histories | — |
| C51 | Options of options are lawful programs | partial | `Model/NestElem`: `Prog.nest`, the operations of the element type are those of the machine one layer down | `P.OK` is preserved by `Prog.nest`; induction on the depth; then C15 | histories with exceptions: see finding 35 |
| C52 | What an option of a reference is bound to | partial | `Model/RefBind`: types with qualifiers, references, `reference_wrapper`, options; the constraints, overload choice of `ref_to_ptr`, initialisation of its parameter | case analysis against reference-compatibility and the documented `can_bind_reference`; the dangling binding is run on the machine of C39 | see findings 36-39 |
| C53 | Accessors give the contained object with the right type and category | proved | `Model/Accessor`: expressions with type, category and origin; overload choice by ref-qualifier; casts and returns | case analysis over all types and option expressions | — |
| C54 | value_or and value_or_construct return the value or a safe fallback | partial | `Model/Accessor`: `value_or`, `value_or_construct` | case analysis; exact conditions | findings 40-42 |
| C55 | impl::invoke is std::invoke | partial | `Model/Invoke`: the five overloads with their constraints and ranking | case analysis against the standard's rules (`Spec/Invoke`) | finding 43 |
| C56 | Operations change only the options they may change | proved | the whole machine; `Spec/Frame` lists what each operation may change | structural rules (`Only`, `Lemmas/Frame`) through every definition, induction over histories | — |
| C57 | Which operations empty or fill an option | proved | the whole machine; `Spec/Engaged` lists what empties and fills | the same for engagement on the specification machine (`Keeps`, `Lemmas/Engaged`), carried over by refinement (C15) | — |
| C58 | The type of a flattened option | partial | `Model/Flatten`: types and categories of the recursion over `Model/Accessor` | induction on the depth, case analysis; exact condition for compiling | findings 19, 45, 46 |
| C59 | get by type on options of tuples | partial | `Model/GetType`: types as trees of tuples; which overload casts to what | position of the unique element, C44; no type is an element of itself | rvalues (finding 8) |
| C60 | Empty braces empty an option | partial | `Model/Braces`: ranking of conversions from `{}` | complete case analysis | findings 47, 48 |
| C61 | Typestate annotations are right | partial | `Model/Typestate`: the annotations as data, the rules of the analysis for straight-line code | structural rule for what an operation leaves at an index, C57, induction over the calls | findings 49-51; branches, temporaries, exceptions |
| C62 | Functions declared pure are pure | partial | `Model/Pure`: which functions carry the attribute; `at`, `at_front`, `at_back` with user code that has effects and throws | every marked operation factors through the bytes of its option (structural rule); merging, moving and dropping follow, with C56 | findings 52, 53 |
| C63 | Checks fail only when the client dereferences an empty option | partial | `Op`, `Prog.runOp`, `Prog.run`; obligations of the client in `Spec/Checks` | refinement; a structural rule shows that the abstract operations have no other checks; induction over the history | constructors that throw after overwriting the sentinel (`Tidy`, C63_violated_no_ub) |
| C64 | The iterators of an option are those of a random access range | partial | `option_iterator` in `Model/Iter`, client programs in `Model/IterProg`; the standard's range in `Spec/IterRange` | refinement of positions by pointers, induction over the program | empty options: programs that seek, order strictly or take addresses fail a check (C64_violated_empty) |
| C65 | Comparisons between options of different nesting depths agree with one order | partial | choice of template and operators at any two depths in `Model/CmpNested`; the order in `Spec/Order` (`Nest.key`, `keyRel`) | induction over both depths | wrapping an empty option (C65_violated_wrap) |
| C66 | The configuration macros do what the documentation says | partial | the preprocessor conditions in `Model/Build`; docs/macros.md as a specification | all combinations, each decided | the combinations in C66_violated_pfr, C66_violated_intel |
| C67 | The documented numbers and ranges of levels are right | partial | the table as data in `Spec/DocTable`, a transcription of the documentation; the traits in `Model/Traits` | one lemma for classes that count in one word (describes_one), one for strings; each row is an instance | the rows in the C67_violated theorems, which say what holds instead |
| C68 | The guide to user defined traits is right | partial | the specialisations shown in the guide as user types in `Spec/Guide`; `Model/Traits`, `Model/NestedOps` | the traits of n options in closed form by induction (nest_traits), then depth and reset by induction | two statements of the guide, refuted in the C68_violated theorems |
| C69 | The reference manual is right | partial | `Model/Manual` (constraints, types, hash), `Model/RefOption`, `Model/Accessor`; the manual in `Spec/Manual` | case analysis over the type facts; runs of both programs on an arbitrary state | what the C69_violated theorems refute; noexcept, triviality and deletion are C47, C18, C19; the code equivalents of the other members are the abstract machine of C15 |
| C70 | Integer sentinels of another type than the wrapped one | partial | `Model/IntSentinel`: integer types, promotion, usual arithmetic conversions, the level functions; `Spec/IntSentinel` has only values and divisibility | conversion is injective modulo the common width; first index in the list; arithmetic | constants no value of `T` compares equal to (C70_violated_narrow); floating-point constants |
| C71 | The wrappers mimic the wrapped type | partial | `Model/Wrapper`: `type_wrapper` and the classes derived from it; `Spec/Wrapper`: the same expressions with `T` | all combinations of the language facts; ranges of the integer types | what the C71_violated theorems refute |
| C72 | Options of types with const parts | partial | `Model/ConstParts`: `option_traits<const X>` for types built from pairs, tuples, arrays and options; `Spec/ConstParts`: all the parts, without a choice | mutual induction over types and member lists | const parts with the most levels, nested options of const (C72_violated theorems); `volatile` |
| C73 | Threads that do not conflict do not influence each other | proved | `Model/Machine`, `Model/Api`, `Model/History` (the operations); `Spec/Threads`: access trees, threads, schedules, the rule for data races | footprint of every operation (`Lemmas/Threads`), locality by induction over the tree, invariant over the schedule | conflicts inside user code; weak memory (irrelevant without conflicts); options of references |
| C74 | opt::option replaces std::optional | partial | `Model/Machine`, `Model/Api`, `Model/History`, `Model/Compare` (the operations of the library); `Spec/StdOptional`: the members of `std::optional` as the standard words them, as a machine of its own | refinement in two steps: library to ideal optional values (C15), ideal optional values to `std::optional` (`Lemmas/StdOptional`), induction over the history | `emplace` and constructors with initializer lists, `make_optional` (same code as the modelled ones); `constexpr`; three-way comparison (the library has none, the six operators are compared) |
| C75 | callables that use the options themselves | partial | `Model/Reentrant`: client programs as trees (operation, branch on its result, callables that are programs again) and the operations with callables run over the byte machine | mutual induction over programs and callables: refinement to the same programs over ideal optional values (`Prog.code_sim`), then the invariant of lifetimes along the run (`Spec.code_good`) | callables of comparisons, hash and `at`; use of a reference kept after the callable destroyed the object; recursion without end (programs are finite trees) |
| C76 | What is made from the arguments given to an option | partial | `Model/AggInit`: the constraint and the initialising expression of every operation that makes a `T`; `Spec/Init`: what `T(args...)` and `T{args...}` mean for nested aggregates (brace elision, narrowing, CWG 1467, parenthesised aggregates) | induction over the members and the arguments (`elements_of_paren`, `paren_of_elements`), then cases | base classes, arrays, bit-fields and references inside aggregates; designated initialisers; value categories |
| C77 | Options of tuple-like types | partial | `Model/TupleLike`: choice of the element, overloads of `tuple_like_get`, binding of `auto&`, the pointer conversions in `get_level`/`set_level`; `Spec/TupleLike`: the documented choice and access | cases over the access expressions; `indexOfMax_spec` (induction) for the choice; byte lemmas | const or volatile element types, references to derived classes, `get` that throws |
| C78 | References to the contained value stay good | partial | the machine (`Model/Machine`, `Api`, `History`); `Spec/Stable`: when the object ends, and what its staying means for the calls of user code | compositional rule `Spares` (in every state where the option is engaged: still engaged, no constructor or destructor call for it) over the specification, refinement, induction over the history | volatile; references into the contained object (a member) which an assignment may end |
| C79 | The debugger shows what is in an option | partial | `Model/Natvis`: the entries of `debugger/option.natvis` and which one a type name gets; `Spec/Natvis`: an honest text | induction over the nesting; the levels of each type characterised by its traits; witnesses for what does not fit | the `Expand` parts, the text of a contained value (its bytes stand for it), `Priority`, wildcards that match across nested names |
| C80 | Options work in constant expressions as they do at run time | partial | `Model/ConstEval`: an option as its union member and flag, every operation rejecting what a constant expression may not do; `Spec/ConstEval`: plain optional values, and which steps are accepted in terms of those and of the storage that was used before | simulation of each operation, then induction over the program; invariants of reachable states for types that never exist; witnesses | that the contained type can be used in constant expressions itself; C++23 and later; compilers that evaluate more or less than the standard asks |
| C81 | Without exceptions options are plain optional values | proved | the machine of `Model/History`; `Spec/Calm`: variables that are empty, hold a known value or were moved from, and what every operation does to them | each operation of the abstract machine is run against `Calm.step` (`Does`, a weakest-precondition reading), induction over the program, transfer to bytes by the refinement of C01 | exceptions; an option that is its own source; `unzip` of rvalues; values after a move |
| C82 | The library's generic test passes for every type | proved | `Spec/Suite`: the body of the generic test as operations with the results that CHECK demands; also operators.test.cpp and the test of `opt::io` | each script is run on plain optional values (`Calm.run`), C81 carries the results over to bytes | checks on types only, iterator arithmetic, `flatten`, `zip_with` of a function without result, references |
| C83 | A value that looks empty is stopped where it is stored | partial | `Spec/Stored`: which operations store or pass on a value, and which values look empty, for the machine of `Model/Machine` and `Model/Api` without any law of the element type | what holds whenever a computation completes, composed backwards from the last check; options nobody touches; the bytes written; witnesses | assignment of options of the same type, which calls the assignment of the element and does not check |
| C84 | Deduced types: how many layers of option an expression has | partial | `Model/ResultType`: the candidates of class template argument deduction and of the operators, with deduction and overload resolution; `Spec/ResultType`: layers of `option<>` around a type, and the types the manual states | cases on what each parameter deduces; induction over the nested calls and over the chain; sizes of types for what cannot be equal | whether the bodies of the functions compile (conversions of the contained types); classes derived from `option`; `volatile` |
| C85 | The machine code the tests expect does what the library functions do | proved | `Model/X86`: the instructions that occur, on six registers, two flags and flat memory; `Model/Codegen`: the listings, transcribed by a script; `Spec/Codegen`: calling conventions, and what it means that code implements a machine operation of `Model/Machine` on the same bytes | stores inside an object are `wr` on its bytes, loads are `ld`; then each listing is run symbolically; questions about one byte are the whole table of 256 | that the compilers produce these listings (the test compares them); the meaning of the instructions is `Model/X86` and not checked against hardware |
| C86 | How the empty state is stored cannot be observed | partial | `Spec/Rep`: `Prog.Alike` (what must agree) and `Prog.SameEnd`; the machine itself is that of C15 and C75 | the specification machines do not look at what `Alike` leaves open (`Lemmas/Rep`); then both programs refine the same run | programs whose element types differ in triviality; user code that looks at the bytes of an option |
| C87 | A successful run of the code generation test means that the code is the expected code | partial | `Model/CodegenRun`: every function of run.py (the regular expressions as functions on lists of characters); `Model/CodegenSample`: the marked lines of sample.cpp, generated; `Spec/CodegenRun`: the compilers of CMakeLists.txt, and a reader of the text of instructions; `Spec/CodegenText`: conditions and disassemblies as data, how they are written and what they mean; `Spec/CodegenLine`: lines as the disassembler writes them | induction over lines; versions are replaced by 8 representatives that no condition in the file tells apart (`checkVersion_rep`), then the finite table of compilers, representatives and listings is checked by the kernel; joined with C85 | starting llvm-objdump (its output is an input); Unicode digits and spaces; MinGW, for which CMakeLists.txt passes the conditions of Linux |
| C88 | Exactly the comparisons that make sense compile, none is ambiguous, and all answer alike | proved | `Model/CmpSelect`: the five templates of each operator with their parameters, constraints and bodies, and overload resolution with rewritten candidates; `Spec/CmpSelect` | induction over the depths; a template of the meant kind is at least as specialised as all that fit (`meant_le`), a best candidate is unique (`best_of`) | conversions to and from options in operators of the element types; boolean-like results whose conversion is ambiguous; `<=>`, which options do not have |
| C89 | An option of a reference to a contained value is another name for it | partial | `Model/Alias`: the functions of `option<T&>` on the machine of options of values, the reference being the place of the contained object; `Spec/Alias`: a use through a reference is the operation on the option it refers to | simulation of one operation (`runOp_sim`), induction over histories (`run_sim`), C78 for how long a reference is good | references to const, to rvalues, to subobjects of the value; results of `map` and `and_then` that are options of references |
| C90 | The check of the examples accepts exactly what the marks say | partial | `Model/Examples`: check.py with the methods of `str` it uses; files and programs are functions; `Spec/Examples`: marks, lines and numerals as relations on how texts are written | functions for marks, lines and numbers are shown to compute these relations, then induction over lines and examples | decoding of files and outputs, digits outside ASCII, the limit on the length of numbers in `int()`, the wording of messages |
| C91 | sentinel_f has one level for each of its values | partial | `Model/SentinelF`: which templates accept which kinds of arguments, and the loops over the values; `Spec/SentinelF`: what `Compare` and `Set` have to do | induction over the number of values for what compiles; the loops are the first match and the indexed value | `Compare` and `Set` change nothing but the object |
| C92 | Calculations and copies of floating-point values neither make nor lose empty states | partial | `Spec/FloatOps`: what hardware does with NaNs, as an inductive definition of the patterns a calculation can make; the traits and the selection are those of `Model/Traits` and `Model/Strategy` | invariants on quiet bit, payload and magnitude, by induction over the calculation | the description of hardware is an assumption (x86, ARM, POWER, RISC-V; not MIPS and PA-RISC, where the quiet bit has the other meaning) |
| C93 | Pointers with tags never look empty | partial | `Spec/Tagged`: which patterns are pointers of a program, by the width of addresses and the bits that are ignored; the traits are those of `Model/Traits` | the bit that is zero in pointers is one in all empty patterns | the descriptions of the processors are assumptions; pointer authentication is left out |
| C94 | The benchmark compares like with like | proved | `Model/Benchmark`: generate.py; `Spec/Benchmark`: declarations, how they are written and when they compile | the text is the declarations, by induction on the number; names differ because decimal numerals do | opening the file |
| C95 | The CMake variables do what is documented, and the installed package can be used | partial | `Model/CMake`: which targets, sources and install rules the CMake files give, and which paths the installed package names; `Spec/CMake`: the documented table, and when a package can be used | decision logic over all variables and machines; paths as text, `join` is injective and the names of the files differ in their last letters | OPTION_EXTRA_FLAGS, compiler warnings, the functions of cmake/sanitizers.cmake (never called), Windows paths, the prefix `/` |
| C96 | The operations do what the code of the manual says | partial | `Spec/DocCode`: the code of the manual on the machine of `Model/Machine`, and when two runs agree | equality of programs where only checks differ (a check after `has_value()` cannot fail); both sides implement the same specification where bytes are copied or a scalar is constructed | scalars converted by user code; operations whose code in the manual is that of the library |

## 5. Properties the code violates, and other findings

Each line says how far it is established: *(proved)* a theorem with a witness, *(read)* from reading the text only.

1. *(proved: C01_violated_by_narrow_padding, C13_violated_narrow)* `PADDING` of 8 or 16 bits: `~member_type(0)` (1503) is computed in `int`,
   so 2^64-1 levels are advertised; level 255 (65535) is stored as a present value.
2. *(proved: C17_violated_throwing_constructor, C17_violated_copy_constructor)* Without a flag, a constructor that throws after having overwritten the
   sentinel (a polymorphic class writes its vtable pointer first) leaves an option that reports a value; its destructor then
   destroys an object that does not exist.
3. *(proved: C16_violated_cxx17_temporary, C20_violated_cxx17_temporary)* C++17 `construct_at` (652-658) builds trivially move assignable types
   through a temporary whose destructor is an extra call.
4. *(proved: C30_violated_reference)* `std::hash<option<T&>>` hashes the pointer, `==` compares the values.
5. `sentinel_f` with more than one value does not compile: 3980 and 3990 call the functions of `sentinel` (`C91_compiles_violated`, `C91_many_violated`).
6. *(proved: C12_repeated_collapses)* `sentinel` with a repeated value: two levels collapse.
7. *(proved: `C69_violated_reference_conversion`, `C69_violated_reference_assign`)* `option<T&>`: the converting constructors are disabled, `operator=(const option<U>&)` is ill-formed (2937).
8. *(proved: C59_violated_rvalue)* `get<T>(option<OptT>&&)` (3478, 3480) casts to the wrong type, so it never compiles.
9. *(read)* `OPTION_USE_QUIET_NAN` is documented but unused.
10. *(proved for the hash: `C69_violated_hash`)* Documentation differs from code: hash of an empty option, `reference_wrapper` size condition.
11. *(read)* `dispatch_specializations<option<const T>>` does not strip `const`.
12. *(proved: C32_zip_engaged with an empty list)* `zip()` of no options is engaged.
13. *(proved: `C83_stopped`, `C83_report`)* Storing a value equal to a sentinel trips `OPTION_VERIFY` (that is its documented purpose).
14. *(proved: C11_overflow_reachable)* Signed enum sentinels: the difference can overflow `int` (undefined).
15. *(proved: C01_violated_by_bool_enum, C03_violated_by_bool_enum)* Reflected `enum E : bool` advertises 255 levels in a `bool`.
16. *(proved: C09_violated_clang_anonymous_top)* Clang: an enumerator at the probe limit in an anonymous namespace is missed.
17. *(proved: C49_emplace_self_ub)* `emplace(*o)` on itself reads a destroyed object.
18. *(proved: C31_documented_end)* `end()` is documented as `begin() + has_value()`; for an empty option that trips a check.
19. *(proved: C58_violated_const_lvalue)* `flatten` of a const lvalue around a non-const object does not compile.
20. *(read)* `option<option<T&>>::set_level` has no range check.
21. *(proved: C09_violated_gcc_template_scope)* GCC: a comma in the scope of the enum makes the scan miscount.
22. *(proved: C19_violated_copy_only)* Moving an option of a copy-only type silently copies although its move constructor is
    declared deleted.
23. *(proved as part of C17)* A scalar assignment whose conversion throws keeps the old value.
24. *(proved: C42_rvalue_reference_to_borrowed)* An rvalue container of lvalue references gives `option<X&&>` to an object it does not own.
25. *(read)* A 32-bit float with only signaling NaNs would use a quiet NaN (cannot occur with IEC 559).
26. *(proved: C39_history)* A moved-from `option<T&>` stays engaged.
27. *(proved: C72_violated_value_type)* A pair or tuple with `const` float or pointer members: `set_level` on a const member is ill-formed.
28. *(read)* `as_option` assigns through a union member outside its lifetime (formally undefined; modelled on bytes).
29. *(proved: C35_violated_string_view)* `as_option` of a `string_view` ignores the length.
30. *(proved: C33_flatten_lvalue)* `flatten` of an lvalue returns a reference to the innermost object.
31. *(proved: C47_violated_swap, C47_violated_converting_swap)* `nothrow_swap` asks `is_nothrow_swappable_with_v<T, U>`, which
    is about rvalues; the body swaps lvalues. For different element types it also ignores the construction of `U` from
    `T&&`. A `noexcept` swap can so terminate the program.
32. *(proved: C47_violated_reference, exact condition C47_reference_exact)* `construct` of an option of a reference is `noexcept` (2326) although a user conversion in `ref_to_ptr` may throw.
33. *(proved: C48_violated_aggregate)* C++17, aggregate `A` whose first member is an `option<int>`: `option<A>` from a
    non-const lvalue `option<int>` stores it as a value, from a const lvalue or rvalue it converts the element.
34. *(proved for `at`: C47_violated_at, exact condition C47_at_exact; read for the others)* `at`, `at_front`, `at_back` and `get` are `noexcept` whatever the accessors of the container do.
35. *(proved: C17_violated_nested, for all `T` and programs)* Every `option<option<T>>` (unless `T` has exactly one level)
    loses its empty state when `T`'s copy or move constructor throws while an engaged inner option is copied into it: the
    inner option is default constructed first, and its empty state is an engaged state of the outer one. Destroying the
    outer option is then undefined. This needs no misbehaviour of `T`.
36. *(proved: C52_violated_temporary, C52_violated_dangling)* `emplace`, `try_emplace` and the in-place constructor of an
    option of a reference accept anything `ref_to_ptr`'s parameter can be initialised from: `option<const long&> o; int i;
    o.emplace(i);` leaves `o` engaged with the address of a temporary that no longer exists.
37. *(proved: C52_violated_wrapper)* `option<X&&>` accepts a `reference_wrapper<X>`, so it refers to an lvalue (documented
    by `can_bind_reference`; that definition also lacks parentheses around its conditional).
38. *(proved: C52_violated_in_place)* The in-place constructor is documented as disabled for references. It is enabled for
    every first argument, tag or not: `option<X&>(42, x)`.
39. *(proved: C52_options_assign_only)* `option<option<X>&>` can be assigned from an lvalue `option<X>` but not constructed from one.
40. *(proved: C54_violated_const)* `option<const X>{x}.value_or(y)` (rvalue) does not compile: the cast to `X&&` would drop `const`.
41. *(proved: C54_violated_temporary)* `option<const std::string&>::value_or("x")` returns a reference to a temporary.
42. *(proved: C54_violated_cast)* `value_or_construct` on an option of a reference evaluates `T(arg)`, a C-style cast: it
    reinterprets unrelated objects, removes `const`, or refers to a temporary.
43. *(proved: C55_violated_wrapper)* `impl::invoke` with a pointer to a member of `reference_wrapper` itself applies it to `first.get()`.
44. *(proved: `C69_violated_accessor_types`)* `value()` on an rvalue is documented to return `remove_reference_t<T>&&`; it returns `T&&`, which is `U&` for `option<U&>`.
45. *(proved: C58_violated_rvalue_reference)* `flatten` of an lvalue around an `X&&` does not compile; reference.md 1572 lists it.
46. *(proved: C58_violated_layer)* `option<const option<X>>` flattens to itself; a reference layer does not compile
    (`is_option_v` knows unqualified options only).
47. *(proved: C60_violated_scalar)* `o = {}` for a scalar `T` assigns `T{}`: an empty `option<int>` becomes engaged with 0.
48. *(proved: C60_violated_reference)* `o = {}` for `option<const int&>` or `option<int&&>` makes it refer to a temporary.
49. *(proved: C61_violated_reset, C61_violated_assign, C61_violated_swap)* `reset()`, assignment from an option, `swap` and `take_if`
    carry no typestate annotation, so that with the analysis enabled an emptied option is still assumed to have a value;
    `operator=(none_t)` does the same as `reset()` and is annotated.
50. *(proved: C61_violated_moved)* Clang takes `consumed` for "moved from" and sets it on arguments of rvalue reference type; the
    library uses it for "has a value", so a moved-from empty option is assumed to have a value.
51. *(proved: C61_violated_class)* results of unannotated functions are assumed to be empty, so accessors are rejected although there is a value.
52. *(proved: C62_violated_check)* `get`, `operator*` and `operator->` contain `OPTION_VERIFY` and are `OPTION_PURE`: if the result
    is not used the compiler may drop the call with its check.
53. *(proved: C62_violated_at)* `at`, `at_front` and `at_back` are `OPTION_PURE` although they call functions of the container and may
    construct an element by value.
54. *(proved: C64_violated_empty)* `option_iterator` is a random access (C++20: contiguous) iterator, but `std::ranges::data(o)`,
    `o.begin() + 0` and `o.begin() < o.end()` fail a check for every empty option.
55. *(proved: C65_violated_wrap, C29_violated_option)* Let `o` be an empty `option<T>` and `option<option<T>> oo(o)`. `oo == o` is
    false and `oo > o` is true, since the template for two options is used. (`std::optional` does the same.)
56. *(proved: C66_violated_pfr)* `OPTION_PFR_FILE` without `OPTION_USE_PFR`: Boost.PFR is used without `OPTION_PFR_NAMESPACE` (143-148), so nothing
    compiles; stand-alone pfr is ignored; a missing file is no error. `OPTION_USE_PFR` without `OPTION_PFR_FILE` is always an error.
57. *(proved: C66_violated_intel)* Release builds of the Intel and of unknown compilers drop the checks instead of making them unreachable.
58. *(proved: C66_bad_access)* Without exceptions, `value()` of an empty option is undefined in release builds, and in debug builds that
    resume from the break: `throw_bad_access` is `[[noreturn]]` and returns.
59. *(proved: C67_violated_string_view, C67_violated_vector, C67_violated_references, C67_violated_enumeration, C67_violated_start)* docs/builtin_traits.md:
    the range of `string_view` starts one too high, the row for `vector` describes another encoding, references have 256 levels (not 255)
    stored as 1 to 256, reflected enumerations have one level more than documented, and the range of `SENTINEL_START` ends at the greatest
    value (not at -1).
60. *(proved: C68_violated_unchecked)* docs/custom_traits_guide.md 258: writing a non-zero level into an empty option makes `has_value()` true.
61. *(proved: C68_violated_comparison)* docs/custom_traits_guide.md 234 compares instead of assigning, so emptying the option fails its check.
62. *(proved: C68_my_type_3)* docs/custom_traits_guide.md 159: for `unsigned char` and `unsigned short`, `x + 1` is computed in `int` and is never 0.
63. *(read)* docs/custom_traits_guide.md 130, 135: `a->x` and `a.get_unchecked().y` name members of `option<my_type>`, which has none.
64. *(proved: C13_violated_bit_field, C13_violated_bool)* A bit-field or `bool` member `PADDING` is accepted and advertises the levels of its declared type.
65. *(proved: C69_violated_rebinding, C69_violated_assign_through, C69_violated_swap)* docs/reference.md: the code equivalents of assignment and swap write through references; the code rebinds.
66. *(proved: C69_violated_unchecked)* `get_unchecked` of an empty option of a reference calls `OPTION_VERIFY`, contrary to the manual.
67. *(proved: C69_violated_end)* `end()` is documented as `begin() + has_value()`, which stops in a check for an empty option.
68. *(proved: C69_violated_args_ctor)* `option(First&&, Args&&...)` is documented for one argument and for `std::in_place_t` in front; neither works.
69. *(proved: C69_violated_move_conversion)* the manual's condition on the converting move constructor is reversed.
70. *(proved: C69_violated_narrowing)* the manual's `is_initializable_from` is list-initialisation, so it forbids narrowing assignments that the code accepts.
71. *(proved: C69_violated_can_bind)* the manual's formula for `can_bind_reference` lacks parentheses.
72. *(proved: C69_violated_reference_conversion, C69_violated_reference_assign)* options of references: no converting construction; assignment of an lvalue option does not compile or binds to a temporary (finding 7).
73. *(proved: C69_violated_initializer_list)* `option<std::initializer_list<X>&>(std::in_place, list)` refers to the constructor's own parameter.
74. *(proved: C69_violated_hash, C69_violated_hash_enabled)* hash of an empty option and when it is enabled (finding 10).
75. *(proved: C69_violated_accessor_types)* result types of `get() &&` and the like for references (finding 44).
76. *(proved: C69_violated_map_type, C69_violated_unzip_type)* the code equivalents with `opt::option{...}` deduce other types for references and options.
77. *(proved: C69_violated_cast)* `option_cast` is documented as `static_cast`; it casts away `const` and reinterprets.
78. *(proved: C70_violated_narrow)* `sentinel<unsigned char, -1>`: `==` compares with `-1` as an `int`, so the empty state never compares equal to the sentinel; the check in the default constructor fails.
79. *(proved: C71_integers, C71_violated_is_constructible)* `option<sentinel<unsigned, ~0u>> o = 1;` does not compile (narrowing in braces), although `std::is_constructible` says it does.
80. *(proved: C71_violated_user_conversion)* `type_wrapper::operator=` is hidden in the derived classes: `enforce<std::string> w; w = "abc";` does not compile, nor does the assignment to an option of it.
81. *(proved: C71_violated_list)* the wrappers copy with braces: a wrapper of `std::vector<std::any>` made from a vector holds a list of one element.
82. *(proved: C72_violated_value_type)* `option<std::map<float, bool>::value_type>` cannot be empty: `set_level` on the const key does not compile (finding 27).
83. *(proved: C72_violated_nested)* `option<option<const bool>>`, `option<option<const std::string>>`, `option<option<const float>>` cannot be empty: the outer option asks `option_traits<const T>`, the inner one `option_traits<T>`.
84. *(proved: `C74_violated_constructor`, `C74_violated_temporary`)* The README says the library is fully compatible with
    `std::optional`. It is not for element types whose empty state is inside `T` when a constructor throws after writing
    its storage (the option then claims to have a value), and in C++17 a type that is trivially move assignable but not
    trivially destructible has one destructor call too many. Everywhere else valid programs do the same (`C74_first_failure`).
85. *(proved: `C75_filter_emptied`, `C75_take_if_emptied`, `C75_destroyed`)* `filter` and `take_if` use the option again after
    their predicate. If the predicate empties the option and returns `true`, `filter` fails the check in `get()` (with checks
    off it reads a destroyed value) while `take_if` returns an empty option; if it destroys the option, both are undefined.
    All other operations do nothing after their callable (`C75_last`, `C75_map_any`).
86. *(proved: `C76_violated_conversion`, `C76_violated_assign`)* For an aggregate `T` the constructors use `T{x}`. If `x` converts
    to `T` by a conversion function, braces do not use it: `option<Point>(proxy)` passes the constraint and does not compile,
    `option<Point>(json)` (a type that converts to everything) compiles and makes `Point{int(json), 0}`. In C++17 `o = json`
    stores this when `o` is empty and the converted `Point` when it is not; in C++20 the constructor and `emplace` differ.
87. *(proved: `C76_violated_narrowing`, `C76_error_exact`)* C++20: the constraint is `is_constructible` (parentheses, narrowing
    allowed) but the constructors use braces, so `option<Point>(std::in_place, 1.5, 2)` is an error inside the library, not a
    missing overload, while `emplace(1.5, 2)` works; docs/feature_list.md 76 says there is no difference to `std::optional`.
88. *(proved: `C76_standards`, `C76_without_paren_init`)* Arguments with elided braces are accepted in C++17 and rejected in C++20;
    with Clang 10 to 15 in C++20 mode (no parenthesised aggregates) `option<Point>(1, 2)` is rejected altogether.
89. *(proved: `C76_constraint_partial`, `C76_violated_constraint`)* docs/reference.md 2473 defines `is_initializable_from` by list
    initialisation; the code asks `is_constructible` first.
90. *(proved: `C77_violated_by_value`, `C77_violated_bindable`)* An option of a tuple-like type whose `get` returns by value (for example
    `std::ranges::subrange` of pointers, and the usual way to opt in to structured bindings) or a reference to const does not
    compile as soon as an element has levels: `auto&` in `tuple_like_get` (950) cannot bind. A member `get` of this kind hides a free
    one that would do. README.md 321 promises "any other tuple-like type".
91. *(proved: `C77_violated_split`, `C77_violated_outside`)* `get_level` and `set_level` call the client's `get` on storage in which no
    object lives, `get_level` on a const one. If the two overloads of `get` refer to different objects the option never becomes
    empty; if `get` follows a pointer, default construction of the option writes through garbage.
92. *(proved: `C79_violated_quiet`)* option.natvis 114 compares 32 bits of an `option<option<double>>` with a 64-bit constant: with quiet
    NaNs (every 32-bit program) the empty option is shown as a value.
93. *(proved: `C79_violated_nan`)* The `float` and `double` entries test both kinds of NaN on every target, so a live NaN that is
    reserved only on other targets is shown as `[none]`.
94. *(proved: `C79_violated_pointer32`, `C79_violated_string32`)* In 32-bit programs an option of a pointer is never shown as `[none]`, and
    what is shown for an option of a string depends on memory behind it: the offsets and patterns are those of 64 bits.
95. *(proved: `C79_violated_memberPtr`, `C79_violated_alloc`)* Member pointers are taken for pointers because their name ends with `*`, and
    strings with another allocator for the ones with levels: an empty option of either is shown as a value.
96. *(proved: `C79_violated_traits_off`)* With `OPTION_USE_BUILTIN_TRAITS` off an empty `option<bool>` is shown as a value; the entries do not
    look at the flag.
97. *(proved: `C79_violated_flag`)* An option with a flag that contains an empty option is shown as `[none]`, as if it were empty itself.
98. *(read)* test/option_traits.test.cpp is not listed in test/CMakeLists.txt, so no built test looks at the level encodings; several of its
    expectations contradict the code (the level of a value, the number of levels of 32-bit pointers, of empty classes and of string views).
99. *(read)* test/special.test.cpp 460 asks for `OPTION_HAS_BOOST_PFR`, which nothing defines (the macro is `OPTION_HAS_PFR`): options of
    reflected aggregates are not tested, and one of the skipped checks would fail (`Replay/Traits`).
100. *(proved: `C80_violated_cxx17`)* In C++17 an `option<int>` that was created empty cannot be given a value in a constant expression, one that
    had a value before can: `construct_at` (661-665) assigns through a pointer, which needs an active member. `a = opt::option<int>{}` takes
    the ability away again and `a = opt::none` does not. Two options with values cannot be swapped, one with and one without can.
101. *(proved: `C80_violated_levels`)* An option with levels cannot be created empty in a constant expression in any language: `set_level(&value, 0)`
    comes before there is a value. Created with a value and then reset it is empty and works (`C80_levels_partial`).
102. *(proved: `C80_violated_bytes`, `C80_bytes_checked`)* `constexpr opt::option<bool> a{true};` compiles only where `OPTION_VERIFY` is not evaluated
    (release builds): in a debug build `has_value()` is called and is not a constant expression. Reading it back with `*a` works in release builds,
    `a.has_value()` never.
103. *(proved: `C80_violated_release`, `C80_violated_unchecked`)* In release builds `*a` after `a.reset()` is a constant expression with the value from before:
    the compiler does not diagnose the broken contract even there.
104. *(proved: `C83_reference_violated`)* `*o = x` with a sentinel `x` empties the option without a check; the destructor of the value is never called.
105. *(proved: `C83_moved_violated`)* A type whose moved-from state equals its sentinel (a handle with -1) makes the source of a move empty, against
    docs/reference.md 88 and 292 ("still holds a value"), and the destructor of the moved-from object is not called.
106. *(proved: `C83_swap_violated`)* `swap` of options of different types that both have values does not check: a value that converts to the sentinel is
    lost, where the converting assignment would have reported it.
107. *(proved: `C84_violated_map_option`, `C84_violated_map_reference`)* The manual's code for `map` (docs/reference.md 943, `return opt::option{fn(get())};`)
    has another type than `map` when the function returns an option (`map` nests, the code does not) or a reference (`map` keeps it, the code
    copies). The tests (test/special.test.cpp 1677-1724) expect what `map` does.
108. *(proved: `C84_zip_with`, `C84_zip_with_void`)* `zip_with(f, o)` and `o.map(f)` differ in type for a function that returns a `const` object
    (`option<const X>` and `option<X>`), and `map` does not accept a function that returns nothing.
109. *(proved: `C84_or_nested`, `C84_grouping_left_only`, `C84_grouping_right_only`)* `a | b` is said to be `value_or`, but for an `option<option<X>>` the
    fallback `option<X>` is rejected. Where `a | b | c` mixes nested options and values, or options of different types, one
    grouping compiles and the other does not; where both do the types agree (`C84_or_grouping`).
110. test/codegen/run.py 43 drops every line that contains `nop` anywhere, for example `call <monopoly>`: an object file with such a call passes the test.
111. test/codegen/run.py 90-94: a condition with a version but without a compiler (`>=11`), or without a space before the version (`gcc>=11`), never holds, because `rfind` returns -1 and the last character is cut off. Nothing reports it; the default listing is used (examples in `Props/CodegenRun`).
112. test/codegen/run.py 107-110: a range `a..b` excludes `b` like `a..<b`; `<=15` excludes 15.0.7; of two decimal numbers separated by one character only the first is converted to hexadecimal (48). No listing of the sample is affected (C87_one; examples in `Props/CodegenRun`).
113. An `option<T&>` bound to the value in an `option<T>` is not told when that value ends: `has_value()` stays true, `get()` passes its check and reads outside the lifetime, where the same function on the option itself fails its check (`C89_dangling`). This is so for any reference; it is stated as the precondition of C89.
114. examples/check.py: a source without marks whose program prints something makes `expected_lines[-1]` throw `IndexError`: the script ends there and the remaining examples are not checked (`C90_stop`). The exit code is still not 0.
115. examples/check.py: `//$` at the very end of a file without a line end is no expectation, while elsewhere it stands for an empty line (`C90_bare_violated`); form feeds and similar characters in the output cut lines in pieces (`C90_break_violated`).
116. examples/check.py: `zip` drops surplus sources or programs without a word (`C90_ignored`); a path with a semicolon is cut.
117. *(proved: `C92_recreated_violated`)* A NaN that is a value can become an empty state by a change of its sign: `a = -*a` empties an option
    of a `double` that holds 0x7FF6C79F55B0898F. With quiet NaNs a signaling NaN with the payload of an empty state becomes one when it is used.
118. *(proved: `C92_copy_violated`, `C92_choice`)* docs/builtin_traits.md 126 is "not sure why" quiet NaNs are used with 4-byte pointers: on the x87
    a load makes signaling NaNs quiet, and an empty option that is copied through its registers would have a value. Quiet NaNs survive.
119. *(proved: `C93_violated`)* With addresses of 57 bits and tags in the 7 bits above them (RISC-V Sv57 with pointer masking) the pattern of an
    empty `option<T*>` is a valid pointer with the tag 0x7C: no longer an address "unused by hardware implementations".
120. *(proved: `C95_sanitizer_violated`)* USE_SANITIZER has no effect: cmake/sanitizers.cmake is included nowhere and `target_add_sanitizer` is
    never called (docs/cmake_variables.md 26-33 says it is on by default; the CI passes its own flags).
121. *(proved: `C95_natstepfilter_violated`, `C95_same_violated`)* OPTION_USE_NATSTEPFILTER is off by default in CMakeLists.txt 13, documented as
    on, and on by default in the installed package. The note about it names a variable `USE_NATSTEPFILTER`, which does not exist.
122. *(proved: `C95_package_violated`)* The installed package is tied to the prefix of the configuration: option-config.cmake.in names
    `@CMAKE_INSTALL_FULL_DATAROOTDIR@`, so after `cmake --install build --prefix other` a project that uses it names source files that do not
    exist. And line 27 of CMakeLists.txt names the include directory `include` whatever CMAKE_INSTALL_INCLUDEDIR is.
123. *(proved: `C95_client_violated`)* OPTION_CODEGEN_TEST (undocumented) is on also inside another project, whose target `all` then compiles
    test/codegen/sample.cpp; the variable `exclude_from_all` is never set.
124. *(proved: `C95_install_violated`)* OPTION_INSTALL drops the tests and examples without a message.
125. *(read)* cmake/clang_tidy.cmake 47 asks for `SHOW_TIME` instead of `ARG_SHOW_TIME`: the time is never shown.
126. *(proved: `C95_examples_violated`)* The documented target `option-examples` does not exist.
127. *(proved: `C96_map_violated`)* The code the manual gives for `map`, `return opt::option{fn(get())};`, moves the result of the function, so it
    needs a movable type and may throw there; `map` builds the result in place and needs neither.

## 6. Simplifications

* Integers are little-endian.
* The destructor of a `T` returned by value (`value_or`, `map_or`, ...) is not logged; it runs outside the option objects.
* `take` uses the named return value optimisation.
* In the histories of C15 a callable gets the contained object and may change or move from it; callables that use the
  library themselves, also on the same option, are C75.
* A C++17 temporary with a trivial destructor is not distinguished from construction in place; only its constructor is
  observable.
* Comparing unrelated pointers by `<` (unspecified) is the outcome `ub`.
* For `option<T&>`, conversion between reference types is a function on places (derived to base).

## 7. Not modelled

Overload resolution and SFINAE beyond the selection tables named above; `constexpr` beyond `Model/ConstEval`; the preprocessor beyond `Model/Build`
(configuration macros other than those that appear as parameters: C++20 mode, pointer width, string library, reflection
support); branches and temporaries in the consumed analysis; `std::ostream` formatting; real
compilers and their optimisations. Nothing ties the model to the C++ text except the citations in the comments, the
care with which they were written, and the expectations of the library's own tests, of which `Replay/*` repeats those about lifetimes,
sizes, sentinels and special members in the model (the model agrees with all that are compiled); `seeded/LOG.jsonl` records which edits of the model the theorems notice.

## 8. Trusted base

* Lean 4.33.0's kernel and its three axioms `propext`, `Classical.choice`, `Quot.sound`. No `sorry`, no own axiom, no
  `native_decide`, no `bv_decide`, no `implemented_by`, no `unsafe`. `decide +kernel` is evaluated by the kernel.
* That the definitions in `Model/` describe the C++ code and those in `Spec/` say what is meant.
* C++ semantics as described in section 1.

### Axioms each property theorem depends on

Output of `#print axioms`, grouped. No other axiom occurs.

* **no axioms** (21): C11_overflow_reachable, C18_unique, C19_unique, C29_violated_option, C47_reference_exact, C47_violated_reference, C65_violated_wrap, C66_compiler, C66_pfr_compiles, C66_pfr_partial, C66_verify_choice, C66_verify_partial, C66_verify_stops, C66_violated_intel, C66_violated_pfr, C69_violated_hash_enabled, C69_violated_narrowing, C69_violated_value_ctor, C71_assign_partial, C71_direct_partial, C71_implicit_partial

* **Classical.choice** (1): C62_reference

* **propext** (61): C18_special_members, C19_deleted, C19_move_expression_partial, C19_violated_copy_only, C30_reference_partial, C31_value_initialised, C39_accessors, C42_rvalue_reference_to_borrowed, C42_tables, C42_tuple_kinds, C47_violated_at, C48_as_std_optional_partial, C48_implicit_agrees_partial, C48_one_overload, C48_violated_aggregate, C52_complete, C52_emplace_object, C53_pointer_accessors, C53_reference_accessors, C54_violated_cast, C54_violated_temporary, C60_empties_partial, C60_exact, C60_never_ambiguous, C60_violated_reference, C60_violated_scalar, C62_violated_at, C65_same_depth, C66_bad_access, C69_copy_conversion_partial, C69_hash_enabled, C69_in_place_ctor, C69_option_assign, C69_reference_assign, C69_value_assign, C69_value_ctor, C69_value_ctor_partial, C69_violated_accessor_types, C69_violated_move_conversion, C69_violated_reference_conversion, C70_in_range, C71_violated_is_constructible, C71_violated_list, C71_violated_user_conversion, C77_violated_bindable, C80_violated_cxx17, C80_violated_levels, C80_violated_release, C80_violated_unchecked, C84_instantiable, C84_zip_with, C84_zip_with_void, C87_violated, C93_platforms, C95_client_violated, C95_documented_partial, C95_examples_violated, C95_install_violated, C95_natstepfilter_violated, C95_same_violated, C95_sanitizer_violated

* **Quot.sound, propext** (180): C01_violated_by_bool_enum, C01_violated_by_narrow_padding, C03_any_depth, C03_violated_by_bool_enum, C04_alignment, C04_nested_flag_free, C04_nested_levels_free, C05_empty, C10_limit, C11_no_overflow, C12_other_present, C12_repeated_collapses, C16_violated_cxx17_temporary, C17_exact_assign, C17_exact_assign_value, C17_exact_try_emplace, C17_violated_nested_example, C24_empty, C24_engaged, C28_consistent, C28_empty_least, C28_equivalence, C28_nested, C28_reference, C28_result, C28_strict_weak_order, C28_throws, C28_trichotomy, C29_none, C29_value_partial, C30_equal, C30_nested, C30_value, C30_violated_reference, C31_documented_end, C31_empty, C31_engaged, C31_loop, C31_reference, C32_zip_with_void_empty, C32_zip_with_void_engaged, C34_from_nullable, C34_inverse, C34_value_option, C36_at, C36_front_back, C38_write, C39_history, C39_never_writes_through, C39_swap, C41_never_other, C41_selection, C42_wrap, C44_tuple, C44_variant_index, C45_nested_reset_checked, C47_at_exact, C47_converting_swap_partial, C47_never_throws, C47_noexcept, C47_set_level, C47_swap_partial, C47_violated_converting_swap, C47_violated_swap, C49_try_emplace_self, C50_history, C50_propagates, C50_value_or_throw, C51_left_by_value, C51_triviality, C52_as_documented, C52_options_assign_only, C52_violated_dangling, C53_callable_argument, C53_predicate_argument, C54_construct_fallback_partial, C54_contained_partial, C54_fallback_exact, C54_fallback_partial, C54_value_or_exact, C54_violated_const, C55_data_member_arguments, C55_violated_wrapper, C56_frame, C56_history, C56_observers, C58_flatten_partial, C58_violated_layer, C59_lvalue_partial, C59_rejected, C59_violated_rvalue, C61_callable_when, C62_completes, C62_containers_partial, C62_violated_check, C63_tidy, C64_outside, C65_overload, C68_disabled, C68_reset_level, C68_zero_float, C69_args_ctor, C69_violated_args_ctor, C69_violated_assign_through, C69_violated_cast, C69_violated_end, C69_violated_hash, C69_violated_map_type, C69_violated_rebinding, C69_violated_reference_assign, C69_violated_swap, C69_violated_unchecked, C69_violated_unzip_type, C72_compiles_partial, C72_const_loses, C72_levels, C72_no_const_partial, C72_violated_greatest, C72_violated_value_type, C73_schedule, C74_violated_temporary, C75_filter_emptied, C75_history, C75_last, C76_agree_partial, C76_as_std_partial, C76_brace_as_paren, C76_class, C76_untagged, C76_violated_assign, C76_violated_constraint, C76_violated_narrowing, C76_without_paren_init, C77_violated_split, C79_violated_alloc, C79_violated_flag, C79_violated_memberPtr, C79_violated_nan, C79_violated_pointer32, C79_violated_quiet, C79_violated_string32, C79_violated_traits_off, C80_reset_ends, C80_violated_bytes, C83_moved_violated, C83_passed_on_partial, C83_reference_violated, C83_report, C83_stopped, C83_stored_partial, C83_swap_violated, C85_bool_reset, C85_double_return, C85_double_return_none, C85_float_1024_return_none, C85_float_assign, C85_float_emplace, C85_float_reset, C85_float_return, C85_float_return_none, C85_int64_return_none, C85_int_1024_return_none, C85_int_assign, C85_int_return, C85_int_return_default_ctor, C85_int_return_none, C87_exact, C87_sample, C89_dangling, C89_same, C90_bare_violated, C90_break_violated, C91_compiles_violated, C91_many_violated, C92_copy_partial, C93_violated, C94_fails, C95_package, C95_package_violated, C96_swap

* **Classical.choice, Quot.sound, propext** (354): C01_levels_distinct, C01_levels_roundtrip_partial, C01_levels_roundtrip_upto_cap, C02_engaged_has_value, C02_live_level_high, C02_nested_has_value, C02_write_through_keeps_engaged, C03_enough_levels, C03_none_at_depth_partial, C03_reset_at_depth_partial, C03_states, C04_flag_cost, C04_size, C05_pair, C05_tuple, C06_double_empty_is_nan, C06_double_values_present, C06_float_empty_is_nan, C06_float_values_present, C07_canonical_present, C07_pointer32_empty_top, C07_pointer_empty_noncanonical, C08_empty_not_enumerator, C08_enumerators_present, C09_clang12, C09_clang_partial, C09_gcc, C09_msvc, C09_violated_clang_anonymous_top, C09_violated_gcc_template_scope, C10_round_up, C11_levels_roundtrip, C11_sentinel, C11_start, C11_start_end, C12_level_is_value, C13_bit_field_partial, C13_padding_narrow_partial, C13_padding_wide, C13_violated_bit_field, C13_violated_bool, C13_violated_narrow, C14_levels_distinct, C14_live_string_present, C15_first_failure, C15_flag_partial, C15_harmless_partial, C15_history_partial, C15_nothrow_partial, C15_step_partial, C16_all_destroyed_partial, C16_harmless_partial, C16_lifetimes_partial, C17_assign_engaged, C17_assign_partial, C17_assign_value_partial, C17_construct_from_partial, C17_construct_value, C17_emplace_partial, C17_nested_in_place, C17_swap_partial, C17_take_partial, C17_violated_copy_constructor, C17_violated_nested, C17_violated_throwing_constructor, C20_assign_engaged, C20_assign_from_empty, C20_assign_into_empty, C20_assign_value_empty, C20_assign_value_engaged, C20_assign_value_scalar, C20_construct_from_empty, C20_construct_from_engaged, C20_construct_value, C20_emplace, C20_reset, C20_try_emplace_empty, C20_try_emplace_engaged, C20_violated_cxx17_temporary, C21_self_copy, C21_self_move, C21_self_swap, C22_swap_empty, C22_swap_engaged, C22_swap_left, C22_swap_right, C23_take_empty, C23_take_engaged, C23_take_if_accept, C23_take_if_empty, C23_take_if_reject, C25_map_or_empty, C25_map_or_engaged, C25_value_or_const, C25_value_or_empty, C25_value_or_engaged, C25_value_or_throw, C26_and_then_empty, C26_and_then_engaged, C26_associativity, C26_left_identity, C26_map_comp, C26_map_empty, C26_map_engaged, C26_map_id, C26_map_is_and_then, C26_right_identity, C27_filter_accept, C27_filter_empty, C27_filter_reject, C27_inspect_empty, C27_inspect_engaged, C27_or_else_empty, C27_or_else_engaged, C31_random_access, C32_unzip_array_empty, C32_unzip_array_engaged, C32_unzip_array_throws, C32_unzip_tuple_empty, C32_unzip_tuple_engaged, C32_unzip_tuple_move_throws, C32_unzip_tuple_throws, C32_unzip_zip_empty, C32_unzip_zip_engaged, C32_zip_empty, C32_zip_engaged, C32_zip_move_throws, C32_zip_throws, C32_zip_unzip, C32_zip_with_empty, C32_zip_with_engaged, C32_zip_with_move_throws, C33_flatten_lvalue, C33_flatten_reference, C33_flatten_rvalue_empty, C33_flatten_rvalue_engaged, C33_flatten_rvalue_throws, C35_empty_iff_partial, C35_holds_value, C35_recognises_empty, C35_sentinel, C35_string_view, C35_violated_string_view, C36_lookup, C36_lookup_unique, C37_and, C37_or, C37_or_assign_empty, C37_or_assign_engaged, C37_or_assoc, C37_or_identity, C37_xor, C37_xor_comm, C38_read, C38_read_throws, C40_assign_engaged, C40_assign_into_empty, C40_construct_engaged, C40_empty, C41_sizes, C43_compose, C43_empty, C43_engaged, C43_rvalue, C44_variant_type, C45_destructor, C45_nested_destructor, C45_nested_reset, C46_callable_throws, C46_fallback_throws, C46_map_result_throws, C48_assign_agrees_partial, C48_direct_partial, C48_empty_stays_empty_partial, C48_exact, C49_emplace_self_ok, C49_emplace_self_ub, C51_any_depth, C51_harmless_partial, C51_history_partial, C51_left_by_copy, C51_nested_ok, C52_direct_partial, C52_violated_in_place, C52_violated_temporary, C52_violated_wrapper, C55_invoke_partial, C57_history, C57_step, C58_flatten_compiles, C58_violated_const_lvalue, C58_violated_rvalue_reference, C61_annotations, C61_history_partial, C61_step_partial, C61_violated_assign, C61_violated_class, C61_violated_moved, C61_violated_reset, C61_violated_swap, C62_drop_partial, C62_optimise, C62_pure, C63_checks_partial, C63_history_partial, C63_violated_no_ub, C64_empty_partial, C64_engaged, C64_reference_partial, C64_violated_empty, C65_hash, C65_key, C65_order, C65_wrap_partial, C67_sentinels, C67_string_view, C67_table_partial, C67_vector, C67_violated_enumeration, C67_violated_references, C67_violated_start, C67_violated_string_view, C67_violated_vector, C68_depth_of_level, C68_my_type_3, C68_my_type_3_values, C68_my_type_lawful, C68_my_type_overwritten, C68_my_type_reset, C68_violated_comparison, C68_violated_unchecked, C69_move_conversion, C69_violated_can_bind, C69_violated_initializer_list, C70_engage, C70_reset, C70_round_trips, C70_trait, C70_violated_narrow, C70_wide, C71_integers, C72_nested_const_partial, C72_violated_nested, C73_accesses, C73_operations, C73_progress, C73_work, C74_first_failure, C74_flag, C74_harmless_partial, C74_history_partial, C74_nothrow, C74_step_partial, C74_violated_constructor, C75_defined_partial, C75_destroyed, C75_flag, C75_harmless_partial, C75_lifetimes_harmless_partial, C75_lifetimes_partial, C75_map_any, C75_nothrow, C75_refine_partial, C75_take_if_changed, C75_take_if_emptied, C76_constraint_partial, C76_error_exact, C76_standards, C76_violated_conversion, C77_error_exact, C77_flag, C77_sound_partial, C77_stored, C77_violated_by_value, C77_violated_outside, C78_ends_partial, C78_history_partial, C78_step_partial, C79_honest_partial, C79_none_partial, C80_bytes_checked, C80_cxx17_keeps_partial, C80_cxx17_literal, C80_cxx17_partial, C80_cxx20_partial, C80_exact_partial, C80_levels_partial, C81_run, C81_step, C82_operators, C82_suite, C84_and, C84_chain, C84_deduction, C84_grouping_left_only, C84_grouping_right_only, C84_layers, C84_map_partial, C84_or, C84_or_grouping, C84_or_nested, C84_violated_map_option, C84_violated_map_reference, C84_xor, C84_zip, C85_bool_has_value, C85_bool_return_none, C85_double_has_value, C85_enum_uint16_return, C85_float_has_value, C85_int_assign_option, C85_option_bool_has_value, C85_option_bool_nested_has_value, C86_code_partial, C86_first_difference, C86_flag, C86_history_partial, C86_mode_partial, C86_nothrow, C86_step_partial, C86_violated, C87_condition, C87_disassembly, C87_implements, C87_line, C87_object, C87_one, C87_passes, C88_answer, C88_answer20, C88_cpp17, C88_cpp20, C88_selected, C89_keep, C89_run_partial, C89_step_partial, C90_ignored, C90_reports_partial, C90_stop, C90_success_partial, C91_levels_partial, C91_meant, C92_calculated, C92_choice, C92_copy_violated, C92_quiet, C92_recreated_violated, C92_signaling, C93_tagged_partial, C94_alike, C96_assign_from, C96_assign_value_partial, C96_ctor_from, C96_map_violated
