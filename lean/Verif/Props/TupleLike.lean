import Verif.Spec.TupleLike
import Verif.Spec.Values
import Verif.Lemmas.TraitsTy

/-!
# C77: options of tuple-like types
-/

namespace Opt.TupleLike

/-! ## Examples: types of the client -/

namespace Demo

/-- a `bool` element at offset `off` with the given access expressions -/
def flag (member free : Bool → Option Expr) : Elem := ⟨1, 1, boolTraits, member, free⟩

/-- an `int` without levels -/
def int (off : Nat) : Elem := ⟨2, 4, noTraits, fun c => some ⟨.lvalue, c, 2, .inside off⟩, fun _ => none⟩

/-- `bool& get()`, `const bool& get() const` -/
def byRef (off : Nat) (c : Bool) : Option Expr := some ⟨.lvalue, c, 1, .inside off⟩

/-- `bool get() const` -/
def byValue (_ : Bool) : Option Expr := some ⟨.prvalue, false, 1, .temporary⟩

/-- no such function -/
def no (_ : Bool) : Option Expr := none

end Demo

variable {es : List Elem} {e : Elem} {r w : Place}

theorem chosen_unique {f : Elem} (h : Chosen es e) (h' : Chosen es f) : e = f := by
  obtain ⟨i, h1, h2, h3⟩ := h
  obtain ⟨j, g1, g2, g3⟩ := h'
  rcases Nat.lt_trichotomy i j with hl | rfl | hl
  · have := g3 i e hl h1; have := h2 j f g1; omega
  · rw [h1] at g1; exact Option.some.inj g1
  · have := h3 j f hl g1; have := g2 i e h1; omega

theorem chosen_index (h : es ≠ []) : ∃ e, es[indexOfMax (es.map fun e => e.traits.maxLevel)]? = some e ∧ Chosen es e := by
  obtain ⟨m, h1, h2, h3⟩ := indexOfMax_spec (xs := es.map fun e => e.traits.maxLevel) (by simpa using h)
  rw [List.getElem?_map] at h1
  cases he : es[indexOfMax (es.map fun e => e.traits.maxLevel)]? with
  | none => rw [he] at h1; cases h1
  | some e =>
    rw [he] at h1; cases h1
    refine ⟨e, rfl, _, he, fun j f hj => h2 j _ ?_, fun j f hl hj => h3 j _ hl ?_⟩ <;>
      rw [List.getElem?_map, hj] <;> rfl

theorem call_iff {c : Bool} {x : Expr} : e.call c = some x ↔ Reaches e c x := by
  simp only [Elem.call]
  cases hm : e.member c with
  | none => exact ⟨fun h => .free hm h, fun h => by cases h with | member h => rw [hm] at h; cases h | free _ h => exact h⟩
  | some y => exact ⟨fun h => by cases h; exact .member hm, fun h => by
      cases h with | member h => rw [hm] at h; exact h | free h _ => rw [hm] at h; cases h⟩

theorem reaches_unique {c : Bool} {x y : Expr} (h : Reaches e c x) (h' : Reaches e c y) : x = y :=
  Option.some.inj ((call_iff.2 h).symm.trans (call_iff.2 h'))

theorem reads_iff : e.reads = some r ↔ Readable e r := by
  simp only [Elem.reads, Elem.get]
  constructor
  · cases hc : e.call true with
    | none => intro h; cases h
    | some x =>
      rcases x with ⟨cat, k, ty, pl⟩
      have hr := call_iff.1 hc
      cases cat <;> cases k <;> by_cases ht : ty = e.ty <;> simp [ht] <;> intro h <;> subst h <;>
        refine ⟨_, hr, ht, ?_⟩ <;> simp
  · rintro ⟨⟨cat, k, ty, pl⟩, hr, ht, h⟩
    rw [call_iff.2 hr]
    cases cat <;> cases k <;> simp_all

theorem writes_iff : e.writes = some w ↔ Writable e w := by
  simp only [Elem.writes, Elem.get]
  constructor
  · cases hc : e.call false with
    | none => intro h; cases h
    | some x =>
      rcases x with ⟨cat, k, ty, pl⟩
      have hr := call_iff.1 hc
      cases cat <;> cases k <;> by_cases ht : ty = e.ty <;> simp [ht] <;> intro h <;> subst h <;>
        exact ⟨_, hr, rfl, rfl, ht, rfl⟩
  · rintro ⟨⟨cat, k, ty, pl⟩, hr, h1, h2, h3, h4⟩
    rw [call_iff.2 hr]
    cases h1; cases h2; cases h3; cases h4; simp

theorem verdict_chosen (h : Chosen es e) : verdict es = if e.traits.maxLevel = 0 then .flag else
    match e.reads, e.writes with | some r, some w => .stored e r w | _, _ => .error := by
  have hn : es ≠ [] := by
    rintro rfl; obtain ⟨i, hi, _⟩ := h; simp at hi
  obtain ⟨f, h1, h2⟩ := chosen_index hn
  cases chosen_unique h h2
  simp only [verdict, h1]
  rfl

/-- **C77**: there is an external flag exactly if no element has a level, then `get` need not even exist. -/
theorem C77_flag : verdict es = .flag ↔ ∀ e ∈ es, e.traits.maxLevel = 0 := by
  by_cases hn : es = []
  · subst hn; simp [verdict]
  obtain ⟨e, h1, h2⟩ := chosen_index hn
  rw [verdict_chosen h2]
  obtain ⟨i, hi, hmax, _⟩ := h2
  constructor
  · intro hv f hf
    have h0 : e.traits.maxLevel = 0 := by
      by_cases h0 : e.traits.maxLevel = 0
      · exact h0
      · rw [if_neg h0] at hv; split at hv <;> cases hv
    obtain ⟨j, hj, rfl⟩ := List.mem_iff_getElem.1 hf
    have := hmax j _ (List.getElem?_eq_getElem hj)
    omega
  · intro h
    rw [if_pos (h e (List.mem_of_getElem? hi))]

/-- two `int`s, the second without any `get` -/
example : verdict [Demo.int 0, { Demo.int 4 with member := Demo.no }] = .flag := C77_flag.2 (by simp [Demo.int, noTraits])

/-- **C77**: otherwise the level is stored in the element the documentation says, where its documented `get` refers to. -/
theorem C77_stored : verdict es = .stored e r w ↔
    Chosen es e ∧ 0 < e.traits.maxLevel ∧ Readable e r ∧ Writable e w := by
  constructor
  · intro hv
    by_cases hn : es = []
    · subst hn; cases hv
    obtain ⟨f, h1, h2⟩ := chosen_index hn
    rw [verdict_chosen h2] at hv
    by_cases h0 : f.traits.maxLevel = 0
    · rw [if_pos h0] at hv; cases hv
    · rw [if_neg h0] at hv
      cases hr : f.reads with
      | none => rw [hr] at hv; cases hv
      | some r' =>
        cases hw : f.writes with
        | none => rw [hr, hw] at hv; cases hv
        | some w' =>
          rw [hr, hw] at hv; cases hv
          exact ⟨h2, by omega, reads_iff.1 hr, writes_iff.1 hw⟩
  · rintro ⟨h1, h2, h3, h4⟩
    rw [verdict_chosen h1, if_neg (by omega), reads_iff.2 h3, writes_iff.2 h4]

/-- an `int` and a `bool` with a member `get` that yields references -/
example : verdict [Demo.int 0, Demo.flag (Demo.byRef 4) Demo.no] =
    .stored (Demo.flag (Demo.byRef 4) Demo.no) (.inside 4) (.inside 4) := rfl

/-- **C77**: a tuple-like type with levels does not compile exactly if the documented `get` of the chosen element does not yield a reference that
can be written through, or on a const object nothing that can be read. -/
theorem C77_error_exact : verdict es = .error ↔
    ∃ e, Chosen es e ∧ 0 < e.traits.maxLevel ∧ ((∀ w, ¬ Writable e w) ∨ ∀ r, ¬ Readable e r) := by
  constructor
  · intro hv
    by_cases hn : es = []
    · subst hn; cases hv
    obtain ⟨f, h1, h2⟩ := chosen_index hn
    rw [verdict_chosen h2] at hv
    by_cases h0 : f.traits.maxLevel = 0
    · rw [if_pos h0] at hv; cases hv
    · rw [if_neg h0] at hv
      refine ⟨f, h2, by omega, ?_⟩
      cases hw : f.writes with
      | none => exact .inl fun w h => by rw [writes_iff.2 h] at hw; cases hw
      | some w' =>
        cases hr : f.reads with
        | none => exact .inr fun r h => by rw [reads_iff.2 h] at hr; cases hr
        | some r' => rw [hr, hw] at hv; cases hv
  · rintro ⟨e, h1, h2, h3⟩
    rw [verdict_chosen h1, if_neg (by omega)]
    cases hr : e.reads with
    | none => cases e.writes <;> rfl
    | some r' =>
      cases hw : e.writes with
      | none => rfl
      | some w' =>
        rcases h3 with h | h
        · exact absurd (writes_iff.1 hw) (h w')
        · exact absurd (reads_iff.1 hr) (h r')

/-- no `get` for const objects -/
example : verdict [Demo.flag (fun c => if c then none else Demo.byRef 0 c) Demo.no] = .error := rfl

/-- **C77**, violated: whenever the `get` of the chosen element returns by value, or a reference to const, the option does not compile; a member
function `get` that does so hides a suitable free function. -/
theorem C77_violated_by_value (h : Chosen es e) (h0 : 0 < e.traits.maxLevel) {y : Expr} (hy : Reaches e false y)
    (hv : y.cat = .prvalue ∨ y.const = true) : verdict es = .error := by
  refine C77_error_exact.2 ⟨e, h, h0, .inl ?_⟩
  rintro w ⟨y', h1, h2, h3, _⟩
  cases reaches_unique hy h1
  rcases hv with hv | hv
  · rw [h2] at hv; cases hv
  · rw [h3] at hv; cases hv

/-- **C77**, violated: a type the language accepts as tuple-like (structured bindings work) and the documentation promises to optimise, but whose
option is an error; likewise for one whose free functions would do. -/
theorem C77_violated_bindable : ∃ es es' : List Elem, Bindable es ∧ Bindable es' ∧ verdict es = .error ∧ verdict es' = .error ∧
    ∀ e ∈ es', ∀ c, ∃ x, e.free c = some x ∧ x.cat = .lvalue ∧ x.const = c ∧ x.ty = e.ty := by
  refine ⟨[Demo.flag Demo.byValue Demo.no], [Demo.flag Demo.byValue (Demo.byRef 0)], ?_, ?_, rfl, rfl, ?_⟩
  · intro e he c; simp at he; subst he; exact ⟨_, .member rfl⟩
  · intro e he c; simp at he; subst he; exact ⟨_, .member rfl⟩
  · intro e he c; simp at he; subst he; exact ⟨_, rfl, rfl, rfl, rfl⟩

/-- **C77**: where `get` refers to the same sub-object for const and other objects, and the element's traits are lawful, the option works: a level
that is set is read back, nothing but the element's bytes changes, and a live value is never taken for empty.
Missing: other `get`s, see the next two theorems. -/
theorem C77_sound_partial {o cap : Nat} {V : Bytes → Prop} (hv : verdict es = .stored e (.inside o) (.inside o))
    (hl : LawfulTraits e.traits e.size V cap) (s : Store) (ho : o + e.size ≤ s.own.length) :
    (∀ l : U64, l.toNat < cap → ∃ s', setLevel e (.inside o) s l = .ok s' ∧ getLevel e (.inside o) s' = .ok l ∧
      s'.own.length = s.own.length ∧ s'.other = s.other ∧
      ∀ a n, a + n ≤ o ∨ o + e.size ≤ a → rd s'.own a n = rd s.own a n) ∧
    (V (rd s.own o e.size) → ∃ l, getLevel e (.inside o) s = .ok l ∧ 0 < l.toNat) := by
  obtain ⟨_, h0, _, _⟩ := C77_stored.1 hv
  have hlen : (rd s.own o e.size).length = e.size := rd_length ho
  constructor
  · intro l hlt
    obtain ⟨bs', h1, h2, h3⟩ := hl.roundtrip _ l hlen hlt
    refine ⟨{ s with own := wr s.own o bs' }, ?_, ?_, ?_, rfl, ?_⟩
    · simp [setLevel, Store.load, Store.save, h1]
    · simp [getLevel, Store.load, rd_wr_same h2 ho, h3]
    · exact wr_length (by omega)
    · intro a n ha
      exact rd_wr_disj (by omega) (by omega)
  · intro hV
    exact ⟨_, rfl, Nat.lt_of_lt_of_le h0 (hl.high _ hlen hV)⟩

/-- the type with an `int` and a `bool`: level 3 of 254 -/
example (s : Store) (h : s.own.length = 8) : ∃ s', setLevel (Demo.flag (Demo.byRef 4) Demo.no) (.inside 4) s 3 = .ok s' ∧
    getLevel (Demo.flag (Demo.byRef 4) Demo.no) (.inside 4) s' = .ok 3 := by
  obtain ⟨s', h1, h2, _⟩ := (C77_sound_partial (es := [Demo.int 0, Demo.flag (Demo.byRef 4) Demo.no]) rfl
    (lawOK_bool 64).toLawfulTraits s (by simp only [h]; decide)).1 3 (by decide)
  exact ⟨s', h1, h2⟩

/-- **C77**, violated: if `get` on a const object refers to another sub-object (a member function that is not const beside a free function, say), the
level read does not depend on the level set: the option does not become empty by `reset`. -/
theorem C77_violated_split {o o' : Nat} (s s' : Store) (l : U64) (hlen : ∀ bs bs', e.traits.setLevel bs l = .ok bs' → bs'.length = e.size)
    (ho : o + e.size ≤ s.own.length) (ho' : o' + e.size ≤ o ∨ o + e.size ≤ o') (hs : setLevel e (.inside o) s l = .ok s') :
    getLevel e (.inside o') s' = getLevel e (.inside o') s := by
  simp only [setLevel, Store.load, Res.bind] at hs
  cases hb : e.traits.setLevel (rd s.own o e.size) l with
  | ok bs' =>
    rw [hb] at hs; simp only [Store.save] at hs; cases hs
    have := hlen _ _ hb
    simp only [getLevel, Store.load, Res.map]
    rw [rd_wr_disj (by omega) (by omega)]
  | throw => rw [hb] at hs; cases hs
  | verify => rw [hb] at hs; cases hs
  | ub => rw [hb] at hs; cases hs

/-- such a type, its option compiles; `reset` on it leaves a value -/
example : verdict [Demo.flag (fun c => if c then none else Demo.byRef 0 c) (Demo.byRef 1)] =
      .stored (Demo.flag (fun c => if c then none else Demo.byRef 0 c) (Demo.byRef 1)) (.inside 1) (.inside 0) ∧
    ∃ s', setLevel (Demo.flag (fun c => if c then none else Demo.byRef 0 c) (Demo.byRef 1)) (.inside 0) ⟨[1, 1], none⟩ 0 = .ok s' ∧
      getLevel (Demo.flag (fun c => if c then none else Demo.byRef 0 c) (Demo.byRef 1)) (.inside 1) s' = .ok 0xFF := by
  refine ⟨rfl, _, rfl, ?_⟩
  decide +kernel

/-- **C77**, violated: if `get` follows a pointer inside the tuple-like object, making an empty option follows it before the object exists. -/
theorem C77_violated_outside (hv : verdict es = .stored e r .outside) (s : Store) (hs : s.other = none) (l : U64) :
    Writable e .outside ∧ setLevel e .outside s l = .ub := by
  refine ⟨(C77_stored.1 hv).2.2.2, ?_⟩
  simp [setLevel, Store.load, hs]

/-- a type with a pointer to a `bool` -/
example : verdict [Demo.flag (fun c => some ⟨.lvalue, c, 1, .outside⟩) Demo.no] =
    .stored (Demo.flag (fun c => some ⟨.lvalue, c, 1, .outside⟩) Demo.no) .outside .outside := rfl

end Opt.TupleLike
