{"id": "C01", "title": "Empty levels round-trip", "statement": "For a type T with option traits, writing any level l below option_traits<T>::max_level into an object's storage, whatever bytes it held before, makes option_traits<T>::get_level return exactly l. Different levels are therefore never confused.", "quantifier": "every type built from the built-in traits (bool, pointers, floats, member pointers, polymorphic, string, string_view, vector, unique_ptr, reference_wrapper, enums, PADDING, sentinel wrappers, pair, tuple, array, tuple-like, complex, member, enforce, nested options), every prior storage content, every level below max_level", "why_tests_cant": "the set of type compositions and prior byte contents is infinite; tests try a handful of types and levels", "anchors": ["include/opt/option.hpp internal_option_traits (1140-1749)", "include/opt/option.hpp option_traits (1760-1786, 3956-4050)"]}
{"id": "C02", "title": "No live value looks empty", "statement": "Every valid object of type T reports a level that is at least max_level, so an option holding a value reports has_value() == true, and so does every option nested around it.", "quantifier": "every type built from the built-in traits and every valid object representation of that type on the supported ABIs", "why_tests_cant": "object representations (2^64 pointers, all doubles, all composites) cannot be enumerated", "anchors": ["include/opt/option.hpp internal_option_traits get_level (1155-1749)", "include/opt/option.hpp class option has_value (3018)", "docs/builtin_traits.md"]}
{"id": "C03", "title": "Nested options of any depth keep all states apart", "statement": "For option nested n times around T there are n+1 kinds of state (empty at depth 0..n-1, or holding a T). Resetting the layer at depth k makes exactly the k outer layers engaged and the layer k empty, and no other kind of state is ever read back, even when the sentinel levels run out and the library falls back to a flag.", "quantifier": "every depth n, every T, every depth k at which the reset happens, every prior storage content", "why_tests_cant": "depth is unbounded and the switch between sentinel storage and flag storage happens at depths tests do not reach (255, 512, ...)", "anchors": ["include/opt/option.hpp internal_option_traits<option<T>> avaliable_option / unavaliable_option (3275-3305)", "include/opt/option.hpp dispatch_specializations<option<T>> (998-1004)", "include/opt/option.hpp option_destruct_base (1898-2107)"]}
{"id": "C04", "title": "option adds no size exactly when T has spare levels", "statement": "sizeof(option<T>) equals sizeof(T) when option_traits<T>::max_level > 0; otherwise one flag byte plus alignment padding is added. Wrapping a further option around a flag-based option is again free.", "quantifier": "every type built from the built-in traits, every size and alignment", "why_tests_cant": "static_asserts cover only the instantiated types", "anchors": ["include/opt/option.hpp option_destruct_base (1908-2107)", "docs/reference.md option<T>"]}
{"id": "C05", "title": "Composite types use a member with the most spare levels", "statement": "For pair, tuple, tuple-like and reflected structs, max_level of the composite equals the largest max_level of its members and the level is stored in a member that attains it; for tuples it is the first such member, for pairs the second on a tie; with no members max_level is 0.", "quantifier": "every list of member types (any length, any max_levels)", "why_tests_cant": "lists of member types are unbounded", "anchors": ["include/opt/option.hpp index_of_max (802-814)", "include/opt/option.hpp find_max_level (816-831)", "include/opt/option.hpp internal_option_traits<std::pair> (1281-1311)", "include/opt/option.hpp internal_option_traits<std::tuple> (1312-1327)"]}
{"id": "C06", "title": "Floating-point empty states are NaNs only", "statement": "Every bit pattern used for an empty option<float>/option<double> is a negative NaN with the advertised quiet bit, so no finite number, infinity or default quiet NaN (0x7FF8.../0xFFF8...) stored in an option can make it look empty.", "quantifier": "all 2^32 / 2^64 bit patterns and all levels", "why_tests_cant": "2^64 patterns cannot be enumerated", "anchors": ["include/opt/option.hpp float64_sNaN, float64_qNaN, float32_sNaN, float32_qNaN (1216-1279)", "docs/builtin_traits.md"]}
{"id": "C07", "title": "Pointer empty states are non-canonical addresses", "statement": "Every bit pattern used for an empty option<T*> on 64-bit targets is a non-canonical address under both 48-bit and 57-bit virtual addressing, so null and every canonical pointer stored in an option is reported as present.", "quantifier": "all 2^64 pointer bit patterns and all 512 levels", "why_tests_cant": "2^64 patterns cannot be enumerated", "anchors": ["include/opt/option.hpp internal_option_traits pointer_64 (1184-1199)", "docs/builtin_traits.md"]}
{"id": "C08", "title": "Reflected enums never lose an enumerator", "statement": "For an enum with automatically discovered empty values, no declared enumerator and no bitwise OR of declared enumerators is used as an empty state, and all levels fit in the underlying type.", "quantifier": "every set of enumerators of every unsigned underlying width, every OR-combination", "why_tests_cant": "sets of enumerators are 2^1024; tests use three enums", "anchors": ["include/opt/option.hpp max_enum_value_impl2 (846-909)", "include/opt/option.hpp internal_option_traits enumeration (1513-1541)"]}
{"id": "C09", "title": "Enum name scanning finds the largest enumerator", "statement": "Scanning the compiler-rendered list of candidate values (GCC form and Clang/MSVC forms) yields one plus the largest declared enumerator below the probe limit, 0 when the topmost candidate is itself declared, and 0 when none is declared.", "quantifier": "every set of declared enumerators, every probe limit, every type name and enumerator name made of identifier characters", "why_tests_cant": "the rendered string depends on user-chosen names and sets; tests see a few", "anchors": ["include/opt/option.hpp max_enum_value_impl2 (848-896)", "include/opt/option.hpp max_enum_value_impl1 (911-914)"]}
{"id": "C10", "title": "Rounding to a power of two is exact in the supported range", "statement": "The bit-trick rounding returns the least power of two that is at least its argument for every argument the library can pass.", "quantifier": "every argument from 1 to 65536", "why_tests_cant": "tests cover a few enumerations only", "anchors": ["include/opt/option.hpp max_enum_value_impl2 (897-908)"]}
{"id": "C11", "title": "Enum SENTINEL ranges are disjoint from other enumerators", "statement": "With SENTINEL, SENTINEL_START or SENTINEL_START/SENTINEL_END enumerators, all values outside the reserved range are reported as present, every reserved value is an empty level, and levels round-trip, whatever the width and signedness of the underlying type, provided the differences do not overflow a signed underlying type.", "quantifier": "every underlying width and signedness, every choice of bounds, every value", "why_tests_cant": "2^64 values times all bounds", "anchors": ["include/opt/option.hpp enumeration_sentinel, enumeration_sentinel_start, enumeration_sentinel_start_end (1542-1594)"]}
{"id": "C12", "title": "opt::sentinel values are exactly the empty states", "statement": "For sentinel<T, V0..Vn-1> with pairwise different values, level i is stored as Vi and read back as i, and every other value of T is reported as present; with a repeated value two levels collapse.", "quantifier": "every T with equality, every list of values", "why_tests_cant": "lists of values are unbounded", "anchors": ["include/opt/option.hpp sentinel_get_level_impl, sentinel_set_level_impl (3934-3953)", "include/opt/option.hpp option_traits<sentinel> (3956-3969)", "include/opt/option.hpp option_traits for sentinel_option_traits (1775-1786)"]}
{"id": "C13", "title": "PADDING member gives as many levels as it promises", "statement": "For a type with an unsigned PADDING member, every level below max_level round-trips through PADDING and a zero PADDING always means a present value.", "quantifier": "every width of the PADDING member, every level", "why_tests_cant": "max_level is up to 2^64-1", "anchors": ["include/opt/option.hpp internal_option_traits padding_member (1497-1512)", "docs/builtin_traits.md"]}
{"id": "C14", "title": "std::string empty states are unreachable by live strings", "statement": "For the libstdc++, libc++ and MSVC string layouts, no live string (short or long, any size or capacity) is reported as empty, and the 255 empty states are all distinguishable.", "quantifier": "every short or long string representation of each layout", "why_tests_cant": "all string representations cannot be enumerated", "anchors": ["include/opt/option.hpp internal_option_traits<std::basic_string> (1613-1711)"]}
{"id": "C15", "title": "Any history of operations behaves like an optional value", "statement": "For any sequence of constructions, copies, moves, assignments, none-assignments, emplace, try_emplace, reset, take, take_if, swap and destruction on any number of options, has_value() and the contained values are exactly those of a mathematical optional; the moved-from option keeps (a moved-from) value.", "quantifier": "every finite history, every element type obeying the traits law, every aliasing pattern of the operands", "why_tests_cant": "histories are unbounded and values arbitrary", "anchors": ["include/opt/option.hpp option_destruct_base (1898-2107)", "include/opt/option.hpp option_base (2135-2280)", "include/opt/option.hpp class option (2793-3270)"]}
{"id": "C16", "title": "Contained objects are constructed and destroyed exactly once", "statement": "Over any history, every contained object that is constructed is destroyed exactly once, no object is accessed, assigned or destroyed outside its lifetime, no live object is overwritten without destruction, and when every option has been destroyed no contained object is left alive.", "quantifier": "every finite history and every point at which user code may throw", "why_tests_cant": "exhaustive histories and throw points are infinite", "anchors": ["include/opt/option.hpp option_destruct_base reset/construct/destructor (1908-2107)", "include/opt/option.hpp construct_at (649-668)"]}
{"id": "C17", "title": "A throwing constructor leaves the option empty", "statement": "If constructing the contained value throws inside emplace, value assignment, copy/move assignment, copy/move construction or swap, the target option is empty afterwards (or not created), and its destructor does not destroy an object that was never constructed.", "quantifier": "every element type, every operation, every throw point, every storage content left behind by the failed constructor", "why_tests_cant": "needs a failure injected at every construction point for every representation", "anchors": ["include/opt/option.hpp option_destruct_base construct (1942, 1990, 2045, 2103)", "include/opt/option.hpp option_construct_from_option (2124-2129)", "include/opt/option.hpp option_assign_from_option (2112-2123)"]}
{"id": "C18", "title": "Special members are trivial exactly when documented", "statement": "Copy/move construction and assignment of option<T> are bitwise (trivial) exactly when the corresponding T operations (and the destructor and constructor for assignments) are trivial; otherwise they go through T's operations. For every combination exactly one implementation is selected.", "quantifier": "all combinations of T's triviality traits", "why_tests_cant": "a complete case table rather than the types present in the tests", "anchors": ["include/opt/option.hpp option_base specialisations (2135-2280)", "docs/reference.md"]}
{"id": "C19", "title": "Special members are deleted exactly when documented", "statement": "option<T> has a copy constructor iff T has, a move constructor iff T has, copy assignment iff T is copy constructible and copy assignable, and move assignment iff T is move constructible and move assignable.", "quantifier": "all combinations of T's copy/move capabilities", "why_tests_cant": "a complete case table rather than the types present in the tests", "anchors": ["include/opt/option.hpp enable_copy_move (2333-2399)", "docs/reference.md"]}
{"id": "C20", "title": "Assignment and construction cost exactly the necessary T operations", "statement": "Assigning an engaged option to an engaged one performs exactly one T assignment; to an empty one exactly one T construction; assigning an empty one to an engaged one exactly one T destruction; empty to empty nothing. emplace destroys the old value (if any) and constructs once; try_emplace constructs once iff empty; take is one move construction and one destruction iff engaged.", "quantifier": "every state of the operands and every value", "why_tests_cant": "tests count operations on one tracked type and a few sequences", "anchors": ["include/opt/option.hpp option_assign_from_option (2112-2123)", "include/opt/option.hpp emplace, try_emplace, take (3002-3040)", "include/opt/option.hpp test/lifetime.test.cpp"]}
{"id": "C21", "title": "Self-assignment and self-swap are safe", "statement": "Copy-assigning an option to itself leaves its state and value unchanged, swapping it with itself leaves its state unchanged, and neither constructs nor destroys a contained object.", "quantifier": "every state and value", "why_tests_cant": "aliasing with every value and storage variant", "anchors": ["include/opt/option.hpp option_assign_from_option (2112-2123)", "include/opt/option.hpp swap (3252-3269)"]}
{"id": "C22", "title": "swap exchanges states", "statement": "After swap (same or different element types) each option holds what the other held; contained objects are moved at most once and nothing is leaked; two empty options are left alone.", "quantifier": "every combination of states, every value, same and converting element types", "why_tests_cant": "all values and states", "anchors": ["include/opt/option.hpp swap (3252-3269)", "include/opt/option.hpp swap function (3401-3404)"]}
{"id": "C23", "title": "take and take_if move the value out and leave the source empty", "statement": "take returns the previous contents and always leaves the option empty. take_if does so iff the option is engaged and the predicate accepts; otherwise it returns empty and the option is unchanged apart from what the predicate itself did to the value. The predicate runs exactly once iff engaged.", "quantifier": "every state, value and predicate (including mutating and throwing ones)", "why_tests_cant": "predicates and values are arbitrary", "anchors": ["include/opt/option.hpp take (3036-3040)", "include/opt/option.hpp take_if (3042-3048)"]}
{"id": "C24", "title": "Accessors agree", "statement": "get, operator*, operator->, value, value_or_throw, get_unchecked, ptr_or_null and begin refer to the same contained object when engaged. value and value_or_throw throw exactly when empty; get, * and -> hit the library's precondition check exactly when empty; ptr_or_null is null exactly when empty.", "quantifier": "every state, value and storage variant", "why_tests_cant": "all states and representations", "anchors": ["include/opt/option.hpp get (3059-3094)", "include/opt/option.hpp operator-> (3095-3104)", "include/opt/option.hpp operator* (3105-3124)", "include/opt/option.hpp value_or_throw (2602-2606, 3159-3167)", "include/opt/option.hpp ptr_or_null (3213-3218)"]}
{"id": "C25", "title": "Fallback accessors choose correctly", "statement": "value_or, value_or_construct, map_or, map_or_else and operator| with a value return the contained value (or the function applied to it) when engaged and the fallback otherwise; the fallback function/constructor runs iff empty, the mapping function iff engaged, each at most once; const& forms leave the option unchanged and && forms move from it at most once.", "quantifier": "every state, value, fallback and function", "why_tests_cant": "functions and values are arbitrary", "anchors": ["include/opt/option.hpp value_or (3169-3184)", "include/opt/option.hpp value_or_construct (2538-2549)", "include/opt/option.hpp map_or (2571-2577)", "include/opt/option.hpp map_or_else (2579-2589)"]}
{"id": "C26", "title": "and_then and map obey the monad and functor laws", "statement": "and_then with option construction is a monad (left identity, right identity, associativity), map is a functor and equals and_then followed by wrapping; all functions are invoked exactly once when the option is engaged and never otherwise.", "quantifier": "every option, every functions f and g", "why_tests_cant": "quantifies over functions", "anchors": ["include/opt/option.hpp and_then (2551-2560)", "include/opt/option.hpp map (2562-2569)"]}
{"id": "C27", "title": "filter, or_else, inspect, has_value_and", "statement": "filter keeps the value iff engaged and the predicate accepts it; or_else returns the option if engaged and otherwise the result of calling the function; inspect calls the function iff engaged and returns the same option; has_value_and is true iff engaged and the predicate accepts. Each callable runs at most once and only in the stated case.", "quantifier": "every state, value and callable", "why_tests_cant": "quantifies over functions", "anchors": ["include/opt/option.hpp filter (2624-2630)", "include/opt/option.hpp or_else (2591-2600)", "include/opt/option.hpp inspect (2616-2622)", "include/opt/option.hpp has_value_and (2608-2614)"]}
{"id": "C28", "title": "Comparisons between options are a consistent order", "statement": "If == on T is an equivalence so is == on option<T>; if < on T is a strict weak (or total) order, so is < on option<T>, with empty options equivalent to each other and below every value; the six operators are mutually consistent whenever they are for T.", "quantifier": "every element relation, every options", "why_tests_cant": "order laws quantify over triples of arbitrary values", "anchors": ["include/opt/option.hpp operator== ... operator>= (3738-3785)"]}
{"id": "C29", "title": "Mixed comparisons agree with option comparisons", "statement": "Comparing an option with none gives the same result as comparing with an empty option, and comparing with a value v gives the same result as comparing with an option holding v, for all six operators and both operand orders.", "quantifier": "every state, every value, every element relation, 24 operators", "why_tests_cant": "quantifies over values and relations", "anchors": ["include/opt/option.hpp comparison with none (3787-3834)", "include/opt/option.hpp comparison with value (3836-3895)"]}
{"id": "C30", "title": "Equal options hash equally", "statement": "If two options compare equal then std::hash of them is equal, provided equal T values hash equally; all empty options of a type hash the same.", "quantifier": "every states and values, every hash function respecting equality", "why_tests_cant": "quantifies over values and hash functions", "anchors": ["include/opt/option.hpp std::hash<option<T>> (4070-4093)"]}
{"id": "C31", "title": "An option is a range of zero or one element", "statement": "Iterating from begin() to end() visits exactly the contained value once when engaged and nothing when empty, end()-begin() is 1 or 0 accordingly, and non-null iterators obey the random-access laws.", "quantifier": "every state, address and offset", "why_tests_cant": "addresses and offsets unbounded", "anchors": ["include/opt/option.hpp option_iterator (2404-2506)", "include/opt/option.hpp begin/end (2979-2994)"]}
{"id": "C32", "title": "zip and unzip", "statement": "zip is engaged iff all arguments are, and then contains their values in order; zip_with calls the function exactly once iff all are engaged; unzip of an engaged tuple yields engaged components and of an empty one all empty; unzip(zip(...)) returns the arguments when all are engaged and all-empty otherwise, and zip(unzip(o)) = o for non-empty tuples.", "quantifier": "every number of options, every states and values", "why_tests_cant": "arity is unbounded", "anchors": ["include/opt/option.hpp zip (3344-3354)", "include/opt/option.hpp zip_with (3356-3372)", "include/opt/option.hpp unzip (3416-3439)"]}
{"id": "C33", "title": "flatten collapses any nesting depth", "statement": "flatten of an option nested n times is engaged iff every layer is engaged, and then holds the innermost value.", "quantifier": "every depth n and every state", "why_tests_cant": "depth unbounded", "anchors": ["include/opt/option.hpp flatten (3406-3414)"]}
{"id": "C34", "title": "from_nullable and ptr_or_null are inverse", "statement": "from_nullable(p) is engaged iff p is non-null and refers to *p, and ptr_or_null(from_nullable(p)) == p; conversely from_nullable(o.ptr_or_null()) has the state of o.", "quantifier": "every pointer", "why_tests_cant": "all pointer values", "anchors": ["include/opt/option.hpp from_nullable (3383-3390)", "include/opt/option.hpp ptr_or_null (3213-3218)"]}
{"id": "C35", "title": "as_option recognises exactly the empty representations", "statement": "as_option(v) is empty iff v is the bit pattern of an empty option of that type, otherwise it holds v unchanged.", "quantifier": "every value of every trivially copyable type with traits", "why_tests_cant": "all bit patterns", "anchors": ["include/opt/option.hpp as_option (3392-3399)"]}
{"id": "C36", "title": "Element lookup never goes out of bounds", "statement": "at(c, i) is engaged iff i < size and then refers to element i; at_front/at_back are engaged iff the container is non-empty and refer to the first/last element; lookup is engaged iff the key is present and refers to its mapped value (or element). No element access happens otherwise.", "quantifier": "every container content, index and key", "why_tests_cant": "containers and indices unbounded", "anchors": ["include/opt/option.hpp at (3576-3582)", "include/opt/option.hpp at_front (3584-3591)", "include/opt/option.hpp at_back (3593-3600)", "include/opt/option.hpp lookup (3609-3625)"]}
{"id": "C37", "title": "Operators |, |=, & and ^ obey their algebra", "statement": "| returns the first engaged operand (associative, none is identity, idempotent); & returns the right operand iff the left is engaged; ^ is engaged iff exactly one operand is and commutes on results; |= equals left = left | right and leaves an engaged left operand untouched without evaluating T operations.", "quantifier": "every states and values, all overloads", "why_tests_cant": "quantifies over values; four overloads each", "anchors": ["include/opt/option.hpp operator| (3627-3667)", "include/opt/option.hpp operator|= (3669-3675)", "include/opt/option.hpp operator& (3677-3690)", "include/opt/option.hpp operator^ (3692-3731)"]}
{"id": "C38", "title": "io writes and reads the contained value or the fallback", "statement": "Streaming io(o) writes the contained value when engaged and nothing otherwise; io(o, fallback) writes/reads the contained value when engaged and the fallback otherwise; reading never changes whether the option is engaged.", "quantifier": "every state, value, stream content", "why_tests_cant": "streams and values are arbitrary", "anchors": ["include/opt/option.hpp io (3515-3574)"]}
{"id": "C39", "title": "Options of references rebind and never write through", "statement": "Assigning, emplacing, swapping, taking or resetting an option<T&> changes only which object it refers to; no referenced object is modified; engaged exactly when bound; two options swapped exchange their referents.", "quantifier": "every history of operations, every memory of referents", "why_tests_cant": "histories unbounded", "anchors": ["include/opt/option.hpp option_base is_reference=true (2285-2329)", "include/opt/option.hpp operator= (2913-2918)"]}
{"id": "C40", "title": "Converting construction and assignment from option<U>", "statement": "Constructing or assigning option<T> from option<U> gives an option engaged iff the source is, holding the converted value; the source keeps its state (moved-from for rvalues); T assignment is used iff both are engaged.", "quantifier": "every states, values and conversion function", "why_tests_cant": "quantifies over conversion functions and states", "anchors": ["include/opt/option.hpp converting constructors (2874-2901)", "include/opt/option.hpp converting assignments (2932-2977)"]}
{"id": "C41", "title": "Trait selection is total and never violates its size requirements", "statement": "For every combination of type properties exactly one trait strategy is selected, following the documented priority, and the selected strategy's size requirements (for instance sizeof == 8 for 64-bit pointer patterns) hold, so the bit casts are well-formed.", "quantifier": "every combination of the type properties consulted", "why_tests_cant": "the tests instantiate a few types", "anchors": ["include/opt/option.hpp detemine_option_strategy (1058-1138)", "include/opt/option.hpp dispatch_specializations (994-1056)", "include/opt/option.hpp ptr_bit_cast (769-795)"]}
{"id": "C42", "title": "Result reference kinds never dangle into rvalue copies", "statement": "The reference kind of opt::get, opt::at and friends follows the container's value category: lvalue containers give lvalue references, rvalue containers give rvalue references, and by-value element accessors give values.", "quantifier": "all combinations of element and container reference kinds", "why_tests_cant": "a full table over type-level functions", "anchors": ["include/opt/option.hpp copy_reference (1849-1866)", "include/opt/option.hpp copy_lvalue_reference (1868-1881)"]}
{"id": "C43", "title": "option_cast converts exactly the contained value", "statement": "option_cast<To>(o) is engaged iff o is, holds To(value), calls the conversion exactly once iff engaged, and composes: casting twice equals casting by the composite.", "quantifier": "every state, value and conversion", "why_tests_cant": "quantifies over conversions", "anchors": ["include/opt/option.hpp option_cast (3374-3381)"]}
{"id": "C44", "title": "opt::get on options of tuples and on variants", "statement": "get<I>(option of tuple) is engaged iff the option is and refers to element I; get<I>(variant) / get<T>(variant) is engaged iff the variant currently holds alternative I / T and refers to it.", "quantifier": "every tuple size, index, active alternative (including valueless)", "why_tests_cant": "sizes and alternatives unbounded", "anchors": ["include/opt/option.hpp get_impl (3441-3461)", "include/opt/option.hpp variant_get (3482-3495)"]}
{"id": "C45", "title": "Destroying an option destroys its value exactly when engaged", "statement": "The destructor of an option runs T's destructor exactly once iff the option is engaged, also for options nested to any depth; for trivially destructible T it does nothing.", "quantifier": "every state, every nesting depth", "why_tests_cant": "states and depths unbounded", "anchors": ["include/opt/option.hpp ~option_destruct_base (1974-1978, 2086-2090)"]}
{"id": "C46", "title": "Exceptions from callbacks do not corrupt the option", "statement": "If a user callable passed to map, and_then, filter, take_if, inspect, has_value_and, map_or, map_or_else or or_else throws, the exception propagates, no result option is created, and the option keeps its engaged state and remains usable.", "quantifier": "every state, every callable and throw decision", "why_tests_cant": "quantifies over throwing behaviours", "anchors": ["include/opt/option.hpp impl::option helpers (2537-2645)"]}
{"id": "C47", "title": "Exception specifications are honest", "statement": "Whenever a member of option<T> is noexcept for a given T, no exception leaves its body unless user code that T itself declares non-throwing throws: the specification asks about every operation the body may use. This covers the default constructor, destructor, copy and move construction and assignment, reset, swap (member and converting), has_value, get, get_unchecked, ptr_or_null, begin, end, comparisons with none and std::hash.", "quantifier": "every T, program, state and throw decision", "why_tests_cant": "an exception leaving a noexcept function terminates the program; a test cannot enumerate throwing behaviours", "anchors": ["include/opt/option.hpp option_base noexcept specifications (2134-2280)", "include/opt/option.hpp nothrow_swap (2640-2644)", "include/opt/option.hpp swap (3252-3269)", "include/opt/option.hpp std::hash (4070-4093)"]}
{"id": "C48", "title": "Initialising option<T> from option<U> chooses like std::optional", "statement": "For T not a reference and U different from T, the constraints of the value and converting constructors and assignments are those of std::optional; direct initialisation stores T(e) exactly if T (not bool) can be made from e, otherwise converts the element; copy initialisation and assignment agree with it; if T cannot be made from option<U>, an empty source never gives an engaged option.", "quantifier": "every combination of constructible / convertible / brace-initialisable / assignable facts, every value category, both language modes", "why_tests_cant": "the tests instantiate a few pairs of types", "anchors": ["include/opt/option.hpp is_initializable_from (1818-1840)", "include/opt/option.hpp SFINAE checks (2647-2729)", "include/opt/option.hpp constructors (2842-2901)", "include/opt/option.hpp assignments (2913-2977)"]}
{"id": "C49", "title": "Emplacing an option from its own value", "statement": "o.emplace(*o) on an engaged option is undefined exactly for the types where reset ends the lifetime of the value or makes it unreadable, and keeps the value otherwise; o.try_emplace(*o) does nothing on every engaged option.", "quantifier": "every element type, state, value and program", "why_tests_cant": "whether the old value is still readable depends on the storage strategy", "anchors": ["include/opt/option.hpp emplace (3002-3008)", "include/opt/option.hpp try_emplace (3010-3016)", "include/opt/option.hpp reset (1935-1950, 2043-2061)"]}
{"id": "C50", "title": "Exceptions come from user code and reach the client", "statement": "Every operation in every state: when it completes no call of user code has thrown, when it lets out an exception exactly one has; value_or_throw throws exactly when empty and calls nothing. Over a history the client catches as many exceptions as calls of user code failed.", "quantifier": "every operation, state (legal or not), program and history length", "why_tests_cant": "needs all throw decisions at all calls in all histories", "anchors": ["include/opt/option.hpp option_base (2134-2280)", "include/opt/option.hpp impl::option helpers (2537-2645)", "include/opt/option.hpp operations (2832-3731)"]}
{"id": "C51", "title": "Options of options are lawful programs", "statement": "option<T> used as the element type of another option satisfies every requirement the library places on element types, its operations being the library's own. So, to any depth, histories of options of options behave like variables holding nested optional values, and another layer does not change which special members are trivial.", "quantifier": "every element type and program, every nesting depth, every history length", "why_tests_cant": "depth, element types and histories are unbounded; the inner option's bytes are interpreted by all layers at once", "anchors": ["include/opt/option.hpp option_base (2134-2280)", "include/opt/option.hpp option_destruct_base (1908-2107)", "include/opt/option.hpp internal_option_traits<option<T>> (3275-3306)"]}
{"id": "C52", "title": "What an option of a reference is bound to", "statement": "Whatever expression gives an option of a reference its referent (value constructor, in-place constructor, value assignment, assignment from another option, emplace, try_emplace), the option then refers to the given object itself, an lvalue for T& and an rvalue for T&&, or to the object of a reference_wrapper; never to a temporary made by a conversion. The constraints accept exactly the expressions documented by can_bind_reference.", "quantifier": "every reference type, expression type, qualifiers, category and class hierarchy", "why_tests_cant": "the tests instantiate a few types; that something dangles is not observable", "anchors": ["include/opt/option.hpp ref_to_ptr (2293-2299)", "include/opt/option.hpp option_checks_base<true> (2742-2789)", "include/opt/option.hpp constructors (2842-2867)", "include/opt/option.hpp assignments (2913-2977)", "include/opt/option.hpp emplace, try_emplace (3002-3016)"]}
{"id": "C53", "title": "Accessors give the contained object with the right type and category", "statement": "get, get_unchecked, operator*, value and value_or_throw compile for every T and every option expression and give the contained object itself: its own type, const if T or (for objects) the option is const, an rvalue exactly if the option expression is an rvalue holding an object or T is U&&. operator->, ptr_or_null, begin and end point to it with the same constness. Callables get that expression, predicates of filter and take_if an lvalue.", "quantifier": "every element type (object, T&, T&&, any qualifiers), every const and value category of the option expression", "why_tests_cant": "the tests call accessors on a few types; a wrong category compiles and only shows as an extra copy or an unwanted move", "anchors": ["include/opt/option.hpp begin, end (2979-2994)", "include/opt/option.hpp get (3059-3094)", "include/opt/option.hpp operator->, operator* (3095-3124)", "include/opt/option.hpp get_unchecked (3126-3157)", "include/opt/option.hpp value_or_throw, value (3159-3167)", "include/opt/option.hpp ptr_or_null (3213-3218)"]}
{"id": "C54", "title": "value_or and value_or_construct return the value or a safe fallback", "statement": "value_or and value_or_construct compile for every option expression; the contained value is returned as an object of its own (moved out of an rvalue) or, for references, as a reference to the referent; the fallback is an object of its own or a reference to the caller's object, never to a temporary that is gone and never to an object of another type.", "quantifier": "every element type, option expression and fallback expression", "why_tests_cant": "dangling references and reinterpretation are not observable by running", "anchors": ["include/opt/option.hpp value_or (3169-3184)", "include/opt/option.hpp value_or_construct (3186-3193)"]}
{"id": "C55", "title": "impl::invoke is std::invoke", "statement": "For every callable and every first argument (a class, a class derived from the one of a member pointer, a reference_wrapper, something pointer-like), impl::invoke has no ambiguous overload and evaluates the expression the standard prescribes for INVOKE.", "quantifier": "every callable, first argument, class hierarchy and number of further arguments", "why_tests_cant": "the tests use lambdas and a few member pointers", "anchors": ["include/opt/option.hpp impl::invoke (613-647)"]}
{"id": "C56", "title": "Operations change only the options they may change", "statement": "An operation changes no byte of an option object, and neither begins nor ends the lifetime of its contents, unless the option is the object of a modifier, an operand given as an rvalue, the option whose contents a callable gets by reference, or a result. So copying from an option, asking, comparing, hashing or printing it leaves it as it was, also when an exception comes out.", "quantifier": "every operation, every state (valid or not), every program, every history length", "why_tests_cant": "that bytes of unrelated or only read options stay the same needs all operations with all throw decisions", "anchors": ["include/opt/option.hpp option_base (2134-2280)", "include/opt/option.hpp impl::option helpers (2537-2645)", "include/opt/option.hpp operations (2832-3731)"]}
{"id": "C57", "title": "Which operations empty or fill an option", "statement": "An engaged option stays engaged, whatever is done and thrown, unless it is destroyed, reset, taken from (take, take_if), swapped, assigned an option or emplaced; in particular a moved-from option stays engaged. An empty option stays empty unless it is destroyed, assigned, emplaced (also try_emplace), swapped or given a value with |=.", "quantifier": "every valid state, every allowed operation, every history length, every throw decision for which failing constructors keep the sentinel (see C17)", "why_tests_cant": "unbounded histories and all points of failure", "anchors": ["include/opt/option.hpp option_base (2134-2280)", "include/opt/option.hpp impl::option helpers (2537-2645)", "include/opt/option.hpp operations (2832-3731)"]}
{"id": "C58", "title": "The type of a flattened option", "statement": "flatten of an option with any number of layers around an X that is no option compiles for every value category; for an lvalue the result is an option of a reference to the contained object with its qualifiers (for a contained X&&: of X&&), for an rvalue an option of X that is moved from the contents, or copied if they are const; the result never contains an option.", "quantifier": "every nesting depth, every X (object or reference, with any qualifiers), every qualification of layers, lvalues and rvalues, const or not", "why_tests_cant": "the tests flatten non-const lvalues and rvalues of objects with two and three layers only", "anchors": ["include/opt/option.hpp flatten (3405-3414)", "include/opt/option.hpp copy_lvalue_reference (1866-1879)", "include/opt/option.hpp is_option_v (option_fwd.hpp 19-25)", "docs/reference.md 1556-1576"]}
{"id": "C59", "title": "get by type on options of tuples", "statement": "get<T>(o) compiles exactly if T is the type of exactly one element of the tuple type, and gives a reference to that element of the contained tuple (what it refers to, if it is a reference) as an lvalue or rvalue like o, or is empty if o is.", "quantifier": "every tuple type (nested tuples included), every element type, every state, lvalues and rvalues", "why_tests_cant": "the tests instantiate a few tuples, and never an rvalue with a type", "anchors": ["include/opt/option.hpp get (3451-3480)"]}
{"id": "C60", "title": "Empty braces empty an option", "statement": "o = {} empties o for every T for which option<T> can be assigned.", "quantifier": "every combination of the language facts that decide the overload resolution (object or reference, qualifiers, scalar or class, initialisable from {}, assignable)", "why_tests_cant": "overload resolution depends on the type; the tests assign {} for a few types only", "anchors": ["include/opt/option.hpp operator= (2903-2918)", "include/opt/option.hpp none_t (option_fwd.hpp 33-35)"]}
{"id": "C61", "title": "Typestate annotations are right", "statement": "Along calls without exceptions, an option that Clang's consumed analysis assumes to have a value by the annotations has one: every annotated call leaves the annotated state, so that no accessor annotated as callable only with a value is accepted although its check will fail.", "quantifier": "every valid state, every sequence of calls of any length, every assumption about the variables that is right at the beginning", "why_tests_cant": "the annotations have no effect at run time and the tests never enable the analysis", "anchors": ["include/opt/option.hpp OPTION_CONSUMABLE etc. (280-293, 2794)", "include/opt/option.hpp constructors (2832-2870)", "include/opt/option.hpp operator= (2903, 2915)", "include/opt/option.hpp emplace, try_emplace (3001, 3009)", "include/opt/option.hpp take (3035)", "include/opt/option.hpp get etc. (3059-3120)"]}
{"id": "C62", "title": "Functions declared pure are pure", "statement": "Every function that carries OPTION_PURE (__attribute__((pure))) is a function of the option it is applied to: it reads nothing else, changes nothing, throws nothing, so that a compiler that merges, moves or drops calls because of the attribute changes no program.", "quantifier": "every state (valid or not), every element type, every continuation, every operation across which a call is moved", "why_tests_cant": "what the attribute allows shows only in optimised builds and depends on the compiler", "anchors": ["include/opt/option.hpp OPTION_PURE (98-102)", "include/opt/option.hpp has_value (3018-3025)", "include/opt/option.hpp get, operator*, operator-> (3060-3124)", "include/opt/option.hpp get_unchecked (3126-3157)", "include/opt/option.hpp ptr_or_null (3213-3218)", "include/opt/option.hpp at, at_front, at_back (3577-3600)", "include/opt/option.hpp comparisons with none (3788-3834)"]}
{"id": "C63", "title": "Checks fail only when the client dereferences an empty option", "statement": "An operation ends in a failing OPTION_VERIFY exactly when it is an accessor of an empty option or one of its arguments is; a client that uses existing options and dereferences only engaged ones can perform any history, whatever user code throws: no check fails, no behaviour is undefined, every state on the way is valid.", "quantifier": "every operation, every valid state, histories of any length, every pattern of exceptions", "why_tests_cant": "the checks are removed in release builds and no test can show that none of them can fail", "anchors": ["include/opt/option.hpp OPTION_VERIFY (190-233)", "include/opt/option.hpp get (3059-3094)", "include/opt/option.hpp operations (2537-2645, 2832-3731)"]}
{"id": "C64", "title": "The iterators of an option are those of a random access range", "statement": "begin() and end() delimit a random access range of one element (engaged) or none (empty): any sequence of steps over any number of iterators that the standard allows on such a range runs without failing a check and sees the standard's results.", "quantifier": "every option, every client program over the iterator operators (any length, any number of variables, any offsets)", "why_tests_cant": "tests use a few fixed expressions; the checks in the operators reject legal programs only in particular combinations with an empty option", "anchors": ["include/opt/option.hpp option_iterator (2404-2506)", "include/opt/option.hpp begin, end (2979-2994)"]}
{"id": "C65", "title": "Comparisons between options of different nesting depths agree with one order", "statement": "option<option<...>> values of any two depths are compared by all six operators as in a single order: emptiness further outside comes first, values of the innermost type last. The order laws and the agreement of == with hash hold across depths. Wrapping x in an option gives something that equals x.", "quantifier": "every pair of depths, every value, every relation on the innermost types, six operators", "why_tests_cant": "the template chosen depends on both depths, and laws across three depths quantify over unboundedly many types", "anchors": ["include/opt/option.hpp operators (3738-3785, 3836-3895)", "include/opt/option.hpp hash (4070-4093)"]}
{"id": "C66", "title": "The configuration macros do what the documentation says", "statement": "For every combination of predefined and user macros: exactly one standard library is assumed; OPTION_PFR_FILE and OPTION_USE_PFR select, reject or ignore the reflection library as documented and the header compiles; OPTION_VERIFY breaks in debug builds and makes the failing case undefined in release builds; value() on an empty option throws or, without exceptions, does not return.", "quantifier": "all combinations of the macros and headers the conditions look at", "why_tests_cant": "one build exercises one combination; most need other compilers or installed libraries", "anchors": ["include/opt/option.hpp compiler and library (18-69)", "include/opt/option.hpp PFR (120-164)", "include/opt/option.hpp libassert, OPTION_VERIFY (170-233)", "include/opt/option.hpp throw_bad_access (2523-2529)"]}
{"id": "C67", "title": "The documented numbers and ranges of levels are right", "statement": "docs/builtin_traits.md gives for each type the number of levels and the values that store them: each level is stored in exactly the documented bytes with the documented value, no other byte changes, the level is recognised exactly in those values, and no other level can be stored.", "quantifier": "every row of the table, every level, every object representation, both pointer widths", "why_tests_cant": "tests store a few levels and read them back with the same code; the stored bytes are never compared with the documentation", "anchors": ["docs/builtin_traits.md (4-28)", "include/opt/option.hpp internal traits (1155-1757)", "include/opt/option.hpp reference_option (3307-3321)"]}
{"id": "C68", "title": "The guide to user defined traits is right", "statement": "docs/custom_traits_guide.md: in n nested options, level l below n means that the n-1-l outer ones are engaged and the next is empty; resetting an option at some depth stores the corresponding level and nothing else; the sizes, states and bytes given for the example specialisations are what the code produces.", "quantifier": "every type with levels, every number of nested options up to max_level, every layer, every object representation", "why_tests_cant": "the tests use the guide's types with one or two layers and fixed values; the guide's own examples are not compiled", "anchors": ["docs/custom_traits_guide.md", "include/opt/option.hpp avaliable_option (3278-3292)", "include/opt/option.hpp option_destruct_base with traits (2003-2107)", "include/opt/option.hpp option_traits (1760-1786)"]}
{"id": "C69", "title": "The reference manual is right", "statement": "docs/reference.md: the conditions under which constructors, assignments and std::hash are enabled, the declared result types and the code equivalents of assignment, swap, end(), map, unzip and option_cast agree with the code; where they do not, the difference is stated exactly.", "quantifier": "every combination of type facts, every pair of types, every state", "why_tests_cant": "the tests never compare the manual with the code; static assertions can only be written for single types", "anchors": ["docs/reference.md", "include/opt/option.hpp check_from_value_ctor, check_option_like_ctor (2647-2690)", "include/opt/option.hpp option_checks_base (2694-2789)", "include/opt/option.hpp constructors (2842-2901)", "include/opt/option.hpp operator= (2913-2977)", "include/opt/option.hpp swap (3252-3269)", "include/opt/option.hpp option_cast (3374-3381)", "include/opt/option.hpp unzip (3416-3439)", "include/opt/option.hpp std::hash (4053-4093)"]}
{"id": "C70", "title": "Integer sentinels of another type than the wrapped one", "statement": "For sentinel<T, V0..Vn-1> with an integer T and constants of any integer types: every level can be stored and read back exactly when each Vi compares equal to some value of T and no value of T compares equal to two of them; a default constructed option is empty exactly when V0 does. Hence every constant that converts to T should do.", "quantifier": "every integer type of 1 to 64 bits, every list of constants of such types", "why_tests_cant": "the tests use only constants of the wrapped type or small positive ones; the combinations of widths, signs and values are unbounded in number", "anchors": ["include/opt/option.hpp sentinel_get_level_impl, sentinel_set_level_impl (3934-3953)", "include/opt/option.hpp option_traits<sentinel> (3956-3969)", "include/opt/option.hpp option_destruct_base (2010-2048)", "include/opt/option.hpp option_traits for sentinel_option_traits (1775-1786)"]}
{"id": "C71", "title": "The wrappers mimic the wrapped type", "statement": "docs/reference.md: sentinel, sentinel_f, member and enforce mimic the wrapped type with constructors and assignment operators: whenever T can be constructed from, converted from or assigned an expression, so can the wrapper, with the same value, and so can an option of the wrapper.", "quantifier": "every T and every type of the expression, by the language facts about them; all pairs of integer types", "why_tests_cant": "that something does not compile cannot be tested; the tests only use the exact type", "anchors": ["include/opt/option.hpp impl::type_wrapper (3898-3927)", "include/opt/option.hpp sentinel, sentinel_f, member, enforce (3931-3932, 3969-3970, 4011-4012, 4031-4032)", "docs/reference.md opt::sentinel"]}
{"id": "C72", "title": "Options of types with const parts", "statement": "If option<T> works for the types of all members, then options of pairs, tuples, arrays and options with const members work too; the number of levels is that of the part with the most, and const never adds levels.", "quantifier": "every type built from pairs, tuples, arrays and options of any depth and width, with const anywhere", "why_tests_cant": "that something does not compile cannot be tested; the tests have no const members and no option<option<const T>>", "anchors": ["include/opt/option.hpp dispatch_specializations, detemine_option_strategy (994-1138)", "include/opt/option.hpp internal_option_traits of pair, tuple, array, tuple_like (1281-1342, 1596-1611)", "include/opt/option.hpp internal_option_traits<opt::option<T>> (3275-3306)", "include/opt/option.hpp option_destruct_base (1908-2107)"]}
{"id": "C73", "title": "Threads that do not conflict do not influence each other", "statement": "Several threads may use options at the same time, and the same option if none of them changes it: whatever the schedule, each thread gets the results, makes the calls of T's functions and leaves the contents of its options that it would have made alone. Const operations and copying write nothing to the option they read.", "quantifier": "every number of threads, all histories without conflict, every schedule at the level of single accesses to option objects, every behaviour of user code that is not shared between threads", "why_tests_cant": "races show up under rare schedules only; the number of schedules is infinite and the tests have one thread", "anchors": ["include/opt/option.hpp has_value, get, operator==, copy construction (2838-2901, 3018-3094, 3738-3895)", "include/opt/option.hpp option_traits<T>::get_level, set_level (1140-1757)"]}
{"id": "C74", "title": "opt::option replaces std::optional", "statement": "A program that is valid with std::optional (it uses the members std::optional has and breaks no precondition of the standard) does the same with opt::option: the same results and exceptions, the same contained values, the same constructor, assignment, swap, destructor and callback calls.", "quantifier": "every history of operations of std::optional on any number of optionals, every behaviour of user code (moved-from values, throwing calls), every element type", "why_tests_cant": "the tests compare a few operations on a few types with literals; equality with another library holds for all programs or not at all", "anchors": ["include/opt/option.hpp README.md 330-339 (Compatibility with std::optional)", "include/opt/option.hpp class option (2793-3270)", "include/opt/option.hpp comparisons (3738-3895), hash (4053-4093)"]}
{"id": "C75", "title": "callables that use the options themselves", "statement": "Client programs choose what to do next from the results they get, and the callables they pass to map, and_then, or_else, filter, take_if, has_value_and, inspect, map_or, map_or_else, zip_with and loop bodies are such programs again: they may empty, refill, assign or destroy options, also the one they run for. Such programs do what they do with ideal optional values, never run into undefined behaviour if the option still exists where take_if and filter use it again, and construct and destroy every contained object properly.", "quantifier": "every client program of any length and nesting depth, all options, all element types, every behaviour of user code", "why_tests_cant": "tests pass callables that compute a value; programs whose callables change the option under the feet of the running operation, nested to any depth, cannot be enumerated", "anchors": ["include/opt/option.hpp helpers (2550-2630)", "include/opt/option.hpp take_if (3043-3048)", "include/opt/option.hpp option_iterator (2404-2506)", "include/opt/option.hpp zip_with (3356-3372)"]}
{"id": "C76", "title": "What is made from the arguments given to an option", "statement": "Constructors, in-place construction, emplace, converting construction, assignment and value_or_construct make the same T from the same arguments, namely T(args...) as std::optional does (for aggregates in C++17 also T{args...}); what the constraints accept compiles; C++17 and C++20 agree.", "quantifier": "every type built from arithmetic types, classes and aggregates nested to any depth; every argument list; every set of user-defined conversions; C++17 and C++20, with and without parenthesised aggregates", "why_tests_cant": "tests construct two aggregates from literals of the right types; proxies, json values, narrowing arguments and brace elision depend on types the tests do not have, and on the language version", "anchors": ["include/opt/option.hpp is_initializable_from (1818-1840)", "include/opt/option.hpp option_destruct_base constructors (1919-1932, 2015-2034)", "include/opt/option.hpp construct_at (649-668)", "include/opt/option.hpp constructors (2842-2872)", "include/opt/option.hpp value_or_construct (2537-2548)", "docs/feature_list.md 72-76, docs/reference.md 2473"]}
{"id": "C77", "title": "Options of tuple-like types", "statement": "For every type with std::tuple_size the level is stored in the element that has the most levels, accessed as documented (member get, then the free function); the option compiles for every tuple-like type, a level that is set is read back, and nothing else changes.", "quantifier": "every number of elements with any traits; every combination of member and free get, by value, lvalue or rvalue reference, const or not, referring inside or outside of the object; every byte content and level", "why_tests_cant": "tests have one tuple-like type with a get that returns references; ranges::subrange and other types whose get returns by value, and get functions that follow a pointer, are not tried", "anchors": ["include/opt/option.hpp is_custom_tuple_like (703-706)", "include/opt/option.hpp find_max_level, tuple_like_find_max_level (816-831, 921-928)", "include/opt/option.hpp tuple_like_get (930-952)", "include/opt/option.hpp internal_option_traits<T, tuple_like> (1596-1611)", "docs/builtin_traits.md 60-74, README.md 321"]}
{"id": "C78", "title": "References to the contained value stay good", "statement": "A reference, pointer or iterator to the contained value (from get, *, ->, ptr_or_null, begin, inspect) is good until the option is destroyed, reset, emplaced, taken from, or assigned from or swapped with an empty option; every other operation leaves that very object in place: no destructor runs for it and no constructor in its storage, whether the operation completes or throws. The operations listed do run the destructor.", "quantifier": "every program of element types, every valid state, every operation and every history of any length, every pattern of exceptions", "why_tests_cant": "a test cannot tell an object that was assigned to from one that was destroyed and constructed again at the same address, and tries few sequences", "anchors": ["include/opt/option.hpp option_base::assign, assign_from_option (2112-2129, 2134-2280)", "include/opt/option.hpp emplace (3002-3008)", "include/opt/option.hpp take, take_if (3036-3057)", "include/opt/option.hpp swap (3252-3269)", "include/opt/option.hpp operator= (2903-2977)", "include/opt/option.hpp reset (2996-3000)"]}
{"id": "C79", "title": "The debugger shows what is in an option", "statement": "For every option, the text the Visual Studio visualizer produces says whether there is a value, and if there is shows that value; a contained option is shown honestly too; what follows the option in memory does not matter.", "quantifier": "every type the file tells apart by name, any nesting depth, every state of the option, 32 and 64 bit programs, both kinds of reserved NaNs, any memory behind the option", "why_tests_cant": "the file is not tested at all: no test runs a debugger, and the copies of the sentinel constants in it are not checked against the header", "anchors": ["include/opt/option.hpp debugger/option.natvis 1-230", "include/opt/option.hpp bool, reference_wrapper, float, double, string, pointer and sentinel traits in option.hpp (1140-1757)", "include/opt/option.hpp has_value_flag (1908-2107)", "include/opt/option.hpp README.md 178"]}
{"id": "C80", "title": "Options work in constant expressions as they do at run time", "statement": "A program of operations on options is a constant expression whenever its contracts hold and the contained types allow it, and then its results are those of the same program at run time; a program that breaks a contract is not a constant expression.", "quantifier": "every finite program of 27 operations on any number of options of any types, with any values and functions, C++17 and C++20, builds that evaluate OPTION_VERIFY and builds that do not", "why_tests_cant": "each static_assert is one program on option<int>; whether a step is allowed depends on the whole history of the union's active member, and types with levels are not tested in constant expressions at all", "anchors": ["include/opt/option.hpp README.md 144-145, 335", "docs/feature_list.md 78-80", "include/opt/option.hpp option.hpp OPTION_VERIFY (190-233)", "include/opt/option.hpp construct_at (649-668)", "include/opt/option.hpp option_destruct_base and option_base (1908-2329)", "include/opt/option.hpp class option (2793-3270)", "include/opt/option.hpp test/constexpr.test.cpp"]}
{"id": "C81", "title": "Without exceptions options are plain optional values", "statement": "In a program in which no user code throws, every operation the library allows does to option variables, and gives back, exactly what it would if a variable were a plain optional value: empty, a known value, or an unspecified value after a move; nothing depends on where the absence is stored.", "quantifier": "every finite program of every operation in the model, from every reachable state, over any mix of types, traits and values in which no user call throws", "why_tests_cant": "a test compares a few sequences for a few types; the claim is about all sequences and every storage strategy at once", "anchors": ["include/opt/option.hpp option.hpp class option (2793-3270)", "include/opt/option.hpp option_destruct_base, option_base (1908-2329)", "include/opt/option.hpp zip, unzip, comparisons, operators, hash, io (3344-4093)", "include/opt/option.hpp test/option.test.cpp (198-1065)"]}
{"id": "C82", "title": "The library's generic test passes for every type", "statement": "Every check of the library's generic test of option<T> (constructors, assignments, accessors, transformations, zip, unzip, swap, ...) holds for every type T and all sample values of which the first two differ. So do the tests of the operators and of opt::io, for any two values of which the first is less than the second.", "quantifier": "every type that fulfils the ordinary requirements with any traits or none, all sample values, C++17 and C++20, whatever storage contains before", "why_tests_cant": "the test is instantiated for some thirty types with five fixed values each, and on one compiler's layout", "anchors": ["include/opt/option.hpp test/option.test.cpp template_option_case_body (198-1065)", "include/opt/option.hpp test/operators.test.cpp (10-115)", "include/opt/option.hpp test/functions.test.cpp opt::io (36-73)", "include/opt/option.hpp option.hpp class option (2793-3270)"]}
{"id": "C83", "title": "A value that looks empty is stopped where it is stored", "statement": "Every function that gives an option a value checks afterwards that the option shows one: if it returns, has_value() is true; a value whose bytes mean 'empty' is reported and never stored.", "quantifier": "every element type without a flag and every behaviour of its members, lawful or not; every operation that constructs, assigns, converts, maps or zips; every memory", "why_tests_cant": "the tests store a sentinel in no option; what a client does wrong with its own type (a moved-from state, a conversion) is not in any test", "anchors": ["docs/reference.md 88, 292", "docs/custom_traits_guide.md", "include/opt/option.hpp option.hpp 2018-2105 (checks after construction)", "include/opt/option.hpp 2924, 2945, 2968 (checks after assignment)", "include/opt/option.hpp swap 3252-3269", "include/opt/option.hpp emplace 3002", "include/opt/option.hpp try_emplace 3010", "include/opt/option.hpp map 2563-2578", "include/opt/option.hpp zip 3344-3372"]}
{"id": "C84", "title": "Deduced types: how many layers of option an expression has", "statement": "option{x} wraps any value once and never wraps an option again, make_option always adds a layer; l | r, l & r and l ^ r compile exactly for the documented operands, unambiguously, and have the documented types, chains of | included; map, zip and zip_with have the type the manual describes.", "quantifier": "every type, any depth of nesting, every constness and value category of operands, any nesting of option{} and make_option, any length of chain", "why_tests_cant": "the tests state the type of some twenty expressions on int and option<int>; overload resolution depends on all candidates for each combination of category and qualification", "anchors": ["include/opt/option.hpp option.hpp deduction guide 3271-3272", "include/opt/option.hpp constructors 2832-2840", "include/opt/option.hpp make_option 3328-3332", "include/opt/option.hpp map 2562-2569", "include/opt/option.hpp and_then 2550-2560", "include/opt/option.hpp zip, zip_with 3344-3372", "include/opt/option.hpp operators 3627-3731", "docs/reference.md 925-962, 1104-1175, 1695-1832, 2436-2453", "include/opt/option.hpp test/option.test.cpp 612-641"]}
{"id": "C85", "title": "The machine code the tests expect does what the library functions do", "statement": "For every function on options in test/codegen/sample.cpp and every listing that is given for it (GCC, Clang, clang-cl, MSVC; System V and Windows calling conventions), running the listing returns, and leaves in the option (or in the returned option) the bytes that the library function of the model leaves there, except padding and the bytes of a value that does not exist; has_value answers the same for all contents of the option; no other memory than the option, the result and the area below the stack pointer is changed, the stack pointer is kept.", "quantifier": "every machine state: all register and memory contents, all addresses of the objects (for the copy: the same object or objects that do not overlap)", "why_tests_cant": "the test compares text: it does not run the code, and says nothing about what the code computes", "anchors": ["include/opt/option.hpp test/codegen/sample.cpp 6-883", "include/opt/option.hpp test/codegen/run.py", "include/opt/option.hpp option.hpp 1908-2107 storage", "include/opt/option.hpp 1155-1169, 1215-1263 level patterns", "include/opt/option.hpp 2134-2280 copy", "include/opt/option.hpp 2903-2930 assignment", "include/opt/option.hpp 2996-3020 reset, emplace, has_value", "include/opt/option.hpp 3275-3306 nested options"]}
{"id": "C86", "title": "How the empty state is stored cannot be observed", "statement": "Two programs that use options in the same way and whose user code does the same with values (same constructors that throw, same moved-from values, same conversions, same trivial members) behave the same, however values and empty states are stored in each of them (a flag, a level of the built-in traits, traits of the user, OPTION_USE_BUILTIN_TRAITS switched off, other pointer width, other contents of unused storage): the same results, the same values in all options, the same calls of user code in the same order, the same failed checks, no undefined behaviour. For histories that std::optional allows, this also holds between C++17 and C++20.", "quantifier": "all pairs of programs that are alike, all histories, all states, all client programs with callables that use the options", "why_tests_cant": "a test runs one element type with one representation; the number of pairs of representations, histories and exceptions is unbounded", "anchors": ["include/opt/option.hpp option.hpp 166-168 OPTION_USE_BUILTIN_TRAITS", "include/opt/option.hpp 1758-1786 option_traits", "include/opt/option.hpp 1908-2107 storage with a flag or with levels", "include/opt/option.hpp 3275-3321 traits of nested options", "docs/macros.md 22"]}
{"id": "C87", "title": "A successful run of the code generation test means that the code is the expected code", "statement": "test/codegen/run.py reports success exactly if every function that has a listing is in the disassembly, every condition and the version can be read, and the cleaned code of each function equals each of its listings whose condition holds (or the one without a condition if no condition holds), line for line. For every compiler that test/codegen/CMakeLists.txt tells apart and for every version, exactly one of the listings of each of the 39 functions in sample.cpp is used, it is written for the calling convention of that compiler, and so a successful run establishes that the machine code of the 23 functions on options implements the library functions (C85).", "quantifier": "all source files, all outputs of the disassembler, all condition lists, all version texts; all compilers and all versions for the sample", "why_tests_cant": "the script is not tested itself; a condition that selects no listing, two listings or one of the wrong calling convention would only show with a particular compiler version, and a script that accepts too much never shows", "anchors": ["include/opt/option.hpp test/codegen/run.py 35-182", "include/opt/option.hpp test/codegen/CMakeLists.txt 14-54", "include/opt/option.hpp test/codegen/sample.cpp 6-880"]}
{"id": "C88", "title": "Exactly the comparisons that make sense compile, none is ambiguous, and all answer alike", "statement": "Two operands, at least one of them an option (of any depth) and maybe the other one none, can be compared with an operator exactly when the types inside all their options can be (in C++20 also turned round, and != through ==), or when one of them is none. Overload resolution among the five templates of the operator and their rewritten C++20 forms never ends in an ambiguity; the template written for the kinds of the operands is chosen, and it is not rewritten if the innermost types can be compared as written. The answer is that of one order on what the operands hold, the same in every version of the language.", "quantifier": "all depths of both operands, all innermost types and all tables of which of them can be compared, all operators, all values, C++17 and C++20 with and without P2468", "why_tests_cant": "whether a comparison compiles depends on a recursion through return types and on the version of the language; tests compile only a few pairs of types, and a comparison that is ambiguous shows only when somebody writes it", "anchors": ["include/opt/option.hpp 3738-3785", "include/opt/option.hpp 3787-3834", "include/opt/option.hpp 3836-3895", "include/opt/option.hpp 2814-2817", "include/opt/option_fwd.hpp 33-36"]}
{"id": "C89", "title": "An option of a reference to a contained value is another name for it", "statement": "In a program that mixes options of values with options of references to the values contained in them (option<T&> r{*o}, from_nullable(o.ptr_or_null())), every function called through a reference does exactly what it does when called on the option the value is in: same result, same calls of the element type, same state of all options, same exceptions. Copying, taking, swapping, filtering references moves names around and touches no value; making or assigning an option of a value from a reference copies, even from an rvalue. Nothing is undefined while the value referred to is there, and it is there as long as the history spares it. Afterwards no check can notice: the reference still says it has a value.", "quantifier": "all histories of any length, all numbers of options of both kinds, all element types with sentinels or flags, all callables and all places where user code throws", "why_tests_cant": "aliasing between options only shows in combinations of operations on both kinds; a use after the value is gone is undefined and may pass any test", "anchors": ["include/opt/option.hpp 2285-2329", "include/opt/option.hpp 2537-2645", "include/opt/option.hpp 2874-2977", "include/opt/option.hpp 3018-3218", "include/opt/option.hpp 3252-3269", "include/opt/option.hpp 3383-3390", "include/opt/option.hpp 3738-3895"]}
{"id": "C90", "title": "The check of the examples accepts exactly what the marks say", "statement": "examples/check.py succeeds exactly if every example ends with exit code 0 and prints one line for each mark //$ of its source, in order, each equal to the mark or matching its wildcard ([number], [nullptr]); its messages name exactly the marks that are not met, with what was printed in their place, and how many lines are missing or too many.", "quantifier": "all sources, outputs, exit codes, numbers of examples, lines and marks", "why_tests_cant": "the script is only run on the four examples of the repository, all of which pass: nothing shows what it does with one that does not", "anchors": ["include/opt/option.hpp examples/check.py (1-47)", "include/opt/option.hpp examples/CMakeLists.txt (5-26)"]}
{"id": "C91", "title": "sentinel_f has one level for each of its values", "statement": "docs/reference.md: for a type wrapped in opt::sentinel_f<T, Compare, Set, Values...> every value is a level that option can use, provided Compare finds what Set has set, no value before it, and none in an object in use.", "quantifier": "all types, comparisons, setters and lists of values of any length", "why_tests_cant": "the test uses a single value; the templates for the second value are never instantiated, so nothing shows that they call the wrong functions", "anchors": ["include/opt/option.hpp sentinel_get_level_impl, sentinel_set_level_impl (3934-3953)", "include/opt/option.hpp sentinel_f_get_level_impl, sentinel_f_set_level_impl (3975-3994)", "include/opt/option.hpp option_traits<sentinel_f> (3996-4010)", "docs/reference.md (2358-2382)", "include/opt/option.hpp test/special_traits.test.cpp (177-192)"]}
{"id": "C92", "title": "Calculations and copies of floating-point values neither make nor lose empty states", "statement": "docs/builtin_traits.md: it is impossible to recreate the patterns of empty states under normal circumstances, because hardware only generates quiet NaNs with a preset payload: no calculation on values whose NaNs are default NaNs gives a value that looks empty, and with signaling NaNs none on values with any quiet NaNs. Copies, also through registers that make NaNs quiet, keep empty states empty and values values.", "quantifier": "all bit patterns of float and double, all finite calculations of any operations, conversions and sign changes, both kinds of NaNs, all platforms the selection knows", "why_tests_cant": "there are more than 2^53 NaNs, tests try a default one; what registers do to NaNs differs between the platforms", "anchors": ["include/opt/option.hpp float64_sNaN, float64_qNaN, float32_sNaN, float32_qNaN (1216-1279)", "include/opt/option.hpp detemine_option_strategy (1084-1103)", "docs/builtin_traits.md (11-14, 115-128)"]}
{"id": "C93", "title": "Pointers with tags never look empty", "statement": "On processors that ignore some upper bits of addresses (Intel LAM, AMD UAI, ARM TBI and MTE, RISC-V pointer masking), no pointer of a program, whatever its tag, has the pattern of an empty option, for any of the types whose levels are in a pointer.", "quantifier": "all pointers, all tags, all seven kinds of types with levels in a pointer, all widths of addresses and positions of tags", "why_tests_cant": "no test uses tags, and each machine has at most one kind of them", "anchors": ["include/opt/option.hpp pointer_64 (1184-1199), reference_wrapper (1171-1183)", "include/opt/option.hpp polymorphic, string_view, unique_ptr (1363-1412), vector (1712-1729), reference_option (3307-3321)", "docs/builtin_traits.md (9, 108-113)"]}
{"id": "C94", "title": "The benchmark compares like with like", "statement": "For every number of iterations benchmark/generate.py writes for opt::option and for std::optional the same declarations up to the class: each compiles, declares every name once and before it is used, and instantiates the class exactly that many times with different types. With other arguments it fails and writes nothing.", "quantifier": "all argument lists and all numbers of iterations", "why_tests_cant": "the script is run with 2000 and two classes only, and nothing looks at the files except the compiler", "anchors": ["include/opt/option.hpp benchmark/generate.py (1-30)", "include/opt/option.hpp benchmark/CMakeLists.txt (4-26)"]}
{"id": "C95", "title": "The CMake variables do what is documented, and the installed package can be used", "statement": "For every choice of variables, every machine, as the main project and inside another one: the tests, the examples, libassert, the sanitizers, the installation rules and the debugger files come out if and only if their variable asks for them, as docs/cmake_variables.md says; a project that uses the library builds nothing else of it. Every file and directory that the installed package names exists, for every prefix at configuration and at installation, and the package adds the same debugger files as the source tree.", "quantifier": "all definitions of the ten variables, all machines, all prefixes and directories (as text)", "why_tests_cant": "the CI installs one package with one prefix and tries the other ways of use with the defaults", "anchors": ["include/opt/option.hpp CMakeLists.txt (5-112)", "include/opt/option.hpp test/CMakeLists.txt (1-84)", "include/opt/option.hpp test/codegen/CMakeLists.txt (1-61)", "include/opt/option.hpp examples/CMakeLists.txt (1-25)", "include/opt/option.hpp benchmark/CMakeLists.txt (1-29)", "include/opt/option.hpp cmake/option-config.cmake.in (1-10)", "include/opt/option.hpp cmake/clang_tidy.cmake (3-50)", "include/opt/option.hpp cmake/sanitizers.cmake (18-119)"]}
{"id": "C96", "title": "The operations do what the code of the manual says", "statement": "docs/reference.md describes the constructors from options, the assignments, swap and map by equivalent code using has_value(), get(), reset(), operations of T and a construct function. Running the operation and running that code agree for every program: the same outcome (completion, exception, failed check), the same visible options and the same calls of user code in the same order, although the library copies bytes for trivially copied types, constructs instead of assigning for scalars and has additional checks.", "quantifier": "all programs, all states satisfying the invariant, all indices, sources and value categories, all calls that throw and everything a failed constructor may leave", "why_tests_cant": "the tests check results of the operations, not the calls of user code in every path against the text of the manual", "anchors": ["docs/reference.md (53-58, 75-80, 167-199, 245-289, 311-318, 342-391, 898-904, 1017-1032)", "include/opt/option.hpp (2112-2129, 2561-2568, 2838-2977, 3252-3269)"]}
