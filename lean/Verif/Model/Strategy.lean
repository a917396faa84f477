/-!
# Selection of the trait strategy (option.hpp 954-1138)

A type is reduced to the properties the selection looks at.
-/

namespace Opt

/-- `option_strategy` (954-992) -/
inductive Strategy where
  | none | other | bool_ | referenceWrapper | pair | tuple | array | availableOption | unavailableOption | referenceOption
  | pointer64 | pointer32 | float64sNaN | float64qNaN | float32sNaN | float32qNaN | polymorphic | stringView | string
  | vector | uniquePtr | memberPointer32 | memberPointer64 | paddingMember | tupleLike | enumSentinel | enumSentinelStart
  | enumSentinelStartEnd | enumeration | complex | reflectable
deriving DecidableEq, Repr

/-- which class template (or `bool`) the type is a specialisation of, as far as `dispatch_specializations` (994-1056) looks -/
inductive Template where
  /-- anything else, also `std::tuple<>` and a `unique_ptr` with another deleter -/
  | unknown
  /-- `option<T>` with `option_traits<T>::max_level = n` -/
  | option (maxLevel : Nat)
  /-- `option<T&>`, `option<T&&>` -/
  | optionRef
  | bool_
  | referenceWrapper
  | pair
  /-- `std::tuple` with at least one element -/
  | tuple
  | array (n : Nat)
  | stringView
  /-- `std::basic_string` with an allocator that is empty / that is final -/
  | string (allocEmpty allocFinal : Bool)
  | vector (allocEmpty allocFinal : Bool)
  /-- `unique_ptr` with `default_delete` -/
  | uniquePtr
  | complex
deriving DecidableEq, Repr

/-- configuration of the library: `OPTION_UNKNOWN_STD`, `OPTION_CAN_REFLECT_ENUM`, `OPTION_HAS_PFR`, `sizeof(std::uintptr_t)` -/
structure Config where
  unknownStd : Bool
  reflectEnum : Bool
  pfr : Bool
  uintptr : Nat
deriving DecidableEq, Repr

/-- the properties of a type that the selection looks at -/
structure TypeInfo where
  template : Template
  size : Nat
  isPointer : Bool
  isMemberPointer : Bool
  isFloat : Bool
  isIec559 : Bool
  hasSNaN : Bool
  hasQNaN : Bool
  isPolymorphic : Bool
  hasPadding : Bool
  isEnum : Bool
  hasSentinel : Bool
  hasStart : Bool
  hasEnd : Bool
  underlyingUnsigned : Bool
  /-- `std::tuple_size<T>::value` is well-formed -/
  isTupleLike : Bool
  isReflectable : Bool
deriving DecidableEq, Repr

/-- `dispatch_specializations<T>::value` (994-1056) -/
def dispatchSpecializations (c : Config) : Template → Strategy
  | .unknown => .other
  | .option n => if n ≥ 1 then .availableOption else .unavailableOption
  | .optionRef => .referenceOption
  | .bool_ => .bool_
  | .referenceWrapper => .referenceWrapper
  | .pair => .pair
  | .tuple => .tuple
  | .array n => if n = 0 then .none else .array
  | .stringView => .stringView
  | .string e f => if c.unknownStd then .other else if e && !f then .string else .none
  | .vector e f => if c.unknownStd then .other else if e && !f then .vector else .none
  | .uniquePtr => .uniquePtr
  | .complex => .complex

/-- `detemine_option_strategy<T>()` (1058-1138) -/
def determineStrategy (c : Config) (t : TypeInfo) : Strategy :=
  let d := dispatchSpecializations c t.template
  if d ≠ .other then d
  else if t.isPointer then
    if t.size = 8 then .pointer64
    else if t.size = 4 then .pointer32
    else .none
  else if t.isMemberPointer then
    if t.size = 4 then .memberPointer32
    else if t.size ≥ 8 then .memberPointer64
    else .none
  else if t.isFloat then
    if !t.isIec559 || (!t.hasSNaN && !t.hasQNaN) then .none
    else if t.size = 8 then
      if c.uintptr = 4 then .float64qNaN
      else if t.hasSNaN then .float64sNaN else .float64qNaN
    else if t.size = 4 then
      if c.uintptr = 4 then .float32qNaN
      else if t.hasSNaN then .float32sNaN else .float32qNaN
    else .none
  else if t.isPolymorphic && t.size ≥ c.uintptr then .polymorphic
  else if t.hasPadding then .paddingMember
  else if t.isEnum then
    if t.hasSentinel then .enumSentinel
    else if t.hasStart then
      if t.hasEnd then .enumSentinelStartEnd else .enumSentinelStart
    else if c.reflectEnum && t.underlyingUnsigned then .enumeration
    else .none
  else if t.isTupleLike then .tupleLike
  else if c.pfr && t.isReflectable then .reflectable
  else .none

/-- the `static_assert`s that the functions of the selected trait contain: `ptr_bit_cast`/`ptr_bit_copy` need equal sizes,
`ptr_bit_cast_least`/`ptr_bit_copy_least` a type at least as large (769-795); every other trait has no size requirement here
(the layout assertions of `basic_string`, 1622-1654, are about the standard library, not about the selection) -/
def sizeAsserts (c : Config) (t : TypeInfo) : Strategy → Bool
  | .bool_ => t.size == 1
  | .referenceWrapper => t.size == c.uintptr
  | .pointer64 => t.size == 8
  | .pointer32 => t.size == 4
  | .float64sNaN => t.size == 8
  | .float64qNaN => t.size == 8
  | .float32sNaN => t.size == 4
  | .float32qNaN => t.size == 4
  | .memberPointer32 => t.size == 4
  | .memberPointer64 => decide (t.size ≥ 8)
  | .polymorphic => decide (t.size ≥ c.uintptr)
  | _ => true

end Opt
