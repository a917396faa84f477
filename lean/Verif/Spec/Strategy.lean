import Verif.Model.Strategy

/-!
# Which strategy a type should get

One condition per strategy, from docs/builtin_traits.md, in terms of the type alone: not a sequence of tests.
-/

namespace Opt

/-- What every C++ type satisfies: the categories exclude each other; only classes have virtual functions, members, or are
specialisations of class templates; `bool` has one byte and `reference_wrapper` the size of a pointer (the latter is what
the documentation assumes); an IEC 559 type has quiet NaNs; only enumerations have enumerators; only classes and unions have
a tuple size or are reflectable. -/
structure TypeInfo.Real (c : Config) (t : TypeInfo) : Prop where
  ptr_excl : t.isPointer = true → t.isMemberPointer = false ∧ t.isFloat = false ∧ t.isEnum = false ∧ t.template = .unknown
  mem_excl : t.isMemberPointer = true → t.isFloat = false ∧ t.isEnum = false ∧ t.template = .unknown
  flt_excl : t.isFloat = true → t.isEnum = false ∧ t.template = .unknown
  enm_excl : t.isEnum = true → t.template = .unknown
  scalar : t.isPointer = true ∨ t.isMemberPointer = true ∨ t.isFloat = true ∨ t.isEnum = true →
    t.isPolymorphic = false ∧ t.hasPadding = false ∧ t.isTupleLike = false
  bool_size : t.template = .bool_ → t.size = 1
  wrapper_size : t.template = .referenceWrapper → t.size = c.uintptr
  iec_nan : t.isIec559 = true → t.hasQNaN = true

/-- is the class template one the library knows in this configuration -/
def Template.known (c : Config) : Template → Prop
  | .unknown => False
  | .string _ _ => c.unknownStd = false
  | .vector _ _ => c.unknownStd = false
  | _ => True

/-- the type is none of the known templates and none of the scalar categories: a class, a union or another fundamental type -/
def TypeInfo.Plain (c : Config) (t : TypeInfo) : Prop :=
  ¬ t.template.known c ∧ t.isPointer = false ∧ t.isMemberPointer = false ∧ t.isFloat = false ∧ t.isEnum = false

/-- the documented condition for each strategy -/
def Fits (c : Config) (t : TypeInfo) : Strategy → Prop
  | .bool_ => t.template = .bool_
  | .referenceWrapper => t.template = .referenceWrapper
  | .pair => t.template = .pair
  | .tuple => t.template = .tuple
  | .array => ∃ n, t.template = .array (n + 1)
  | .availableOption => ∃ n, t.template = .option (n + 1)
  | .unavailableOption => t.template = .option 0
  | .referenceOption => t.template = .optionRef
  | .stringView => t.template = .stringView
  | .string => t.template = .string true false ∧ c.unknownStd = false
  | .vector => t.template = .vector true false ∧ c.unknownStd = false
  | .uniquePtr => t.template = .uniquePtr
  | .complex => t.template = .complex
  | .pointer64 => t.isPointer = true ∧ t.size = 8
  | .pointer32 => t.isPointer = true ∧ t.size = 4
  | .memberPointer32 => t.isMemberPointer = true ∧ t.size = 4
  | .memberPointer64 => t.isMemberPointer = true ∧ 8 ≤ t.size
  | .float64sNaN => t.isFloat = true ∧ t.isIec559 = true ∧ t.size = 8 ∧ t.hasSNaN = true ∧ c.uintptr ≠ 4
  | .float64qNaN => t.isFloat = true ∧ t.isIec559 = true ∧ t.size = 8 ∧ (t.hasSNaN = false ∨ c.uintptr = 4)
  | .float32sNaN => t.isFloat = true ∧ t.isIec559 = true ∧ t.size = 4 ∧ t.hasSNaN = true ∧ c.uintptr ≠ 4
  | .float32qNaN => t.isFloat = true ∧ t.isIec559 = true ∧ t.size = 4 ∧ (t.hasSNaN = false ∨ c.uintptr = 4)
  | .enumSentinel => t.isEnum = true ∧ t.hasSentinel = true
  | .enumSentinelStart => t.isEnum = true ∧ t.hasSentinel = false ∧ t.hasStart = true ∧ t.hasEnd = false
  | .enumSentinelStartEnd => t.isEnum = true ∧ t.hasSentinel = false ∧ t.hasStart = true ∧ t.hasEnd = true
  | .enumeration => t.isEnum = true ∧ t.hasSentinel = false ∧ t.hasStart = false ∧ t.underlyingUnsigned = true ∧
      c.reflectEnum = true
  | .polymorphic => t.Plain c ∧ t.isPolymorphic = true ∧ c.uintptr ≤ t.size
  | .paddingMember => t.Plain c ∧ t.hasPadding = true ∧ ¬ (t.isPolymorphic = true ∧ c.uintptr ≤ t.size)
  | .tupleLike => t.Plain c ∧ t.isTupleLike = true ∧ t.hasPadding = false ∧
      ¬ (t.isPolymorphic = true ∧ c.uintptr ≤ t.size)
  | .reflectable => t.Plain c ∧ t.isReflectable = true ∧ c.pfr = true ∧ t.isTupleLike = false ∧ t.hasPadding = false ∧
      ¬ (t.isPolymorphic = true ∧ c.uintptr ≤ t.size)
  | .other => False
  /- the type is left alone: no other condition holds -/
  | .none =>
    (∃ e f, (t.template = .string e f ∨ t.template = .vector e f) ∧ c.unknownStd = false ∧ (e = false ∨ f = true)) ∨
    t.template = .array 0 ∨
    (t.isPointer = true ∧ t.size ≠ 8 ∧ t.size ≠ 4) ∨
    (t.isMemberPointer = true ∧ t.size < 8 ∧ t.size ≠ 4) ∨
    (t.isFloat = true ∧ (t.isIec559 = false ∨ (t.size ≠ 8 ∧ t.size ≠ 4))) ∨
    (t.isEnum = true ∧ t.hasSentinel = false ∧ t.hasStart = false ∧ (t.underlyingUnsigned = false ∨ c.reflectEnum = false)) ∨
    (t.Plain c ∧ t.hasPadding = false ∧ t.isTupleLike = false ∧ (t.isReflectable = false ∨ c.pfr = false) ∧
      ¬ (t.isPolymorphic = true ∧ c.uintptr ≤ t.size))

end Opt
