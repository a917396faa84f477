import Verif.Spec.SentinelF
import Verif.Props.IntSentinel
import Verif.Props.Levels

/-!
# C91: sentinels that are compared and set by function objects
-/

namespace Opt.SentinelF

/-! ## Which templates compile -/

theorem accepts_get (k : Nat) : accepts [.type, .value, .value, .values] ([.type, .value] ++ List.replicate (k + 1) .value) = true := by
  simp [accepts, List.replicate_succ]

theorem compiles_get (k fuel : Nat) (h : k < fuel) :
    compiles fuel .get ([.type, .value] ++ List.replicate (k + 1) .value) = true ∧ compiles fuel .set ([.type, .value] ++ List.replicate (k + 1) .value) = true := by
  induction k generalizing fuel with
  | zero =>
    obtain ⟨m, rfl⟩ : ∃ m, fuel = m + 1 := ⟨fuel - 1, by omega⟩
    exact ⟨rfl, rfl⟩
  | succ k ih =>
    obtain ⟨m, rfl⟩ : ∃ m, fuel = m + 1 := ⟨fuel - 1, by omega⟩
    obtain ⟨h1, h2⟩ := ih m (by omega)
    have e : ([Arg.type, Arg.value] ++ List.replicate (k + 1 + 1) Arg.value).length + 1 - 4 = k + 1 := by simp
    constructor
    · rw [compiles]
      simp only [Fun.params, accepts_get, List.length_cons, List.length_nil, e, Fun.next, h1, Bool.or_true, Bool.and_true]
    · rw [compiles]
      simp only [Fun.params, accepts_get, List.length_cons, List.length_nil, e, Fun.next, h2, Bool.or_true, Bool.and_true]

/-- the next call passes `Compare` where a number is expected -/
theorem compiles_wrong (k fuel : Nat) : compiles fuel .get ([.type, .type, .value] ++ List.replicate k .value) = false := by
  cases fuel <;> simp [compiles, Fun.params, accepts]

/-- **C91**: `sentinel` compiles for every number of values but 0 (where nothing uses it), `sentinel_f` for one value only: for more it names
the functions of `sentinel`, whose second argument is no type. -/
theorem C91_compiles_violated : (∀ n, sentinelCompiles n = true ↔ n ≠ 0) ∧ ∀ n, sentinelFCompiles n = true ↔ n = 1 := by
  refine ⟨fun n => ?_, fun n => ?_⟩
  · match n with
    | 0 => decide
    | n + 1 =>
      have h := compiles_get n (n + 1 + 5) (by omega)
      simp only [sentinelCompiles, h.1, h.2, Bool.and_self, ne_eq, Nat.add_eq_zero_iff, Nat.succ_ne_self, and_false, not_false_eq_true]
  · match n with
    | 0 => decide
    | 1 => decide
    | n + 2 =>
      have e : ([Arg.type, Arg.type, Arg.value] ++ List.replicate (n + 2) Arg.value).length + 1 - 5 = n + 1 := by simp
      have e' : (([Arg.type, Arg.type, Arg.value] ++ List.replicate (n + 2) Arg.value).length + 1 == 5) = false := by simp
      have : compiles (n + 2 + 5) .getF ([.type, .type, .value] ++ List.replicate (n + 2) .value) = false := by
        rw [compiles]
        simp only [Fun.params, List.length_cons, List.length_nil, e, Fun.next, compiles_wrong, e', Bool.or_self, Bool.and_false]
      rw [sentinelFCompiles, this]
      simp

/-! ## What they do -/

theorem get_eq_sentinelGet {A V : Type} (cmp : A → V → Bool) : ∀ (vs : List V) (i : U64) (x : A), get cmp vs i x = sentinelGet cmp vs i x
  | [], _, _ => rfl
  | [v], i, x => rfl
  | v :: u :: vs, i, x => by
    rw [get, sentinelGet, get_eq_sentinelGet cmp (u :: vs)]

theorem set_eq_sentinelSet {A V : Type} (put : A → V → A) (x : A) (l : U64) :
    ∀ (vs : List V) (i : U64), set put vs i x l = sentinelSet (vs.map (put x)) i l
  | [], _ => rfl
  | [v], i => rfl
  | v :: u :: vs, i => by
    rw [set, set_eq_sentinelSet put x l (u :: vs)]
    rfl

variable {V : Type} {n : Nat} {Valid : Bytes → Prop} {cmp : Bytes → V → Bool} {put : Bytes → V → Bytes} {vs : List V}

theorem get_idx (hne : vs ≠ []) (x : Bytes) : (meant cmp put vs).getLevel x =
    if vs.findIdx (cmp x) < vs.length then BitVec.ofNat 64 (vs.findIdx (cmp x)) else BitVec.allOnes 64 := by
  show get cmp vs 0 x = _
  rw [get_eq_sentinelGet, IntSentinel.get_eq _ _ _ _ hne]
  have hz : ∀ n : Nat, (0 : U64) + BitVec.ofNat 64 n = BitVec.ofNat 64 n := fun n => BitVec.zero_add _
  rw [hz]

theorem set_idx (hl : vs.length < 2 ^ 64) {i : Nat} {v : V} (hi : vs[i]? = some v) (x : Bytes) :
    (meant cmp put vs).setLevel x (BitVec.ofNat 64 i) = .ok (put x v) := by
  show set put vs 0 x _ = _
  rw [set_eq_sentinelSet]
  exact IntSentinel.set_eq _ i _ (by simp [hi]) (by simpa using hl)

/-- **C91** as it is meant: the levels of any number of values work exactly if `Compare` finds what `Set` has set, no value before it, and none
in an object that is in use. -/
theorem C91_meant (hne : vs ≠ []) (hl : vs.length < 2 ^ 64) :
    LawfulTraits (meant cmp put vs) n Valid vs.length ↔ Works n Valid cmp put vs := by
  have hnat : ∀ m, m < vs.length → (BitVec.ofNat 64 m).toNat = m := fun m hm => by
    rw [BitVec.toNat_ofNat]; exact Nat.mod_eq_of_lt (by omega)
  have hones : (BitVec.allOnes 64 : U64).toNat = 2 ^ 64 - 1 := by decide
  constructor
  · intro h
    have hfirst : ∀ x : Bytes, x.length = n → ∀ (i : Nat) (v : V), vs[i]? = some v → (put x v).length = n ∧ vs.findIdx (cmp (put x v)) = i := by
      intro x hx i v hi
      have hil : i < vs.length := (List.getElem?_eq_some_iff.1 hi).1
      obtain ⟨y, h1, h2, h3⟩ := h.roundtrip x (BitVec.ofNat 64 i) hx (by rw [hnat i hil]; exact hil)
      rw [set_idx hl hi] at h1
      cases h1
      refine ⟨h2, ?_⟩
      rw [get_idx hne] at h3
      have h3 := congrArg BitVec.toNat h3
      rw [hnat i hil] at h3
      split at h3
      · rename_i hf
        rw [hnat _ hf] at h3
        exact h3
      · rw [hones] at h3; omega
    refine ⟨?_, ?_, ?_, ?_⟩
    · intro x hx hv v hm
      have := h.high x hx hv
      rw [get_idx hne] at this
      split at this
      · rename_i hf
        rw [hnat _ hf] at this
        have : vs.length ≤ vs.findIdx (cmp x) := this
        omega
      · rename_i hf
        have := List.findIdx_eq_length.1 (Nat.le_antisymm List.findIdx_le_length (Nat.not_lt.1 hf)) v hm
        simpa using this
    · intro x hx v hm
      obtain ⟨i, hi⟩ := List.mem_iff_getElem?.1 hm
      exact (hfirst x hx i v hi).1
    · intro x hx v hm
      obtain ⟨i, hi⟩ := List.mem_iff_getElem?.1 hm
      have hf := (hfirst x hx i v hi).2
      obtain ⟨hil, he⟩ := List.getElem?_eq_some_iff.1 hi
      have := (List.findIdx_eq hil).1 hf
      rw [he] at this
      exact this.1
    · intro x hx i j v u hi hj hji
      have hf := (hfirst x hx i v hi).2
      obtain ⟨hil, he⟩ := List.getElem?_eq_some_iff.1 hi
      obtain ⟨hjl, hej⟩ := List.getElem?_eq_some_iff.1 hj
      have := ((List.findIdx_eq hil).1 hf).2 j hji
      rw [hej] at this
      simpa using this
  · intro h
    refine ⟨hl, ?_, ?_⟩
    · intro x hx hv
      have hf : ¬ vs.findIdx (cmp x) < vs.length := by
        intro hf
        have := List.findIdx_getElem (w := hf)
        rw [h.live x hx hv _ (List.getElem_mem hf)] at this
        cases this
      rw [get_idx hne, if_neg hf, hones]
      show vs.length ≤ _
      omega
    · intro x l hx hlt
      obtain ⟨v, hv⟩ : ∃ v, vs[l.toNat]? = some v := ⟨_, List.getElem?_eq_getElem hlt⟩
      have hm : v ∈ vs := List.mem_of_getElem? hv
      have el : BitVec.ofNat 64 l.toNat = l := by simp
      have hs := set_idx (cmp := cmp) (put := put) hl hv x
      rw [el] at hs
      refine ⟨put x v, hs, h.size x hx v hm, ?_⟩
      have hf : vs.findIdx (cmp (put x v)) = l.toNat := by
        rw [List.findIdx_eq hlt]
        refine ⟨?_, fun j hj => ?_⟩
        · rw [(List.getElem?_eq_some_iff.1 hv).2]; exact h.found x hx v hm
        · exact h.first x hx l.toNat j v _ hv (List.getElem?_eq_getElem (by omega)) hj
      rw [get_idx hne, hf, if_pos hlt, el]

/-- two values for one byte: 7 and 9 -/
theorem demo_works : Works 1 (fun x => x ≠ [7] ∧ x ≠ [9]) (fun (x : Bytes) (v : Byte) => x == [v]) (fun _ v => [v]) [7, 9] := by
  refine ⟨?_, by simp, by simp, ?_⟩
  · rintro x _ ⟨h1, h2⟩ v hv
    simp only [List.mem_cons, List.not_mem_nil, or_false] at hv
    rcases hv with rfl | rfl
    · exact beq_eq_false_iff_ne.2 h1
    · exact beq_eq_false_iff_ne.2 h2
  · intro x _ i j v u hi hj hji
    match i, j, hji with
    | 1, 0, _ => simp at hi hj; subst hi hj; decide
    | i + 2, _, _ => simp at hi

example : LawfulTraits (meant (fun (x : Bytes) (v : Byte) => x == [v]) (fun _ v => [v]) [7, 9]) 1 (fun x => x ≠ [7] ∧ x ≠ [9]) 2 :=
  (C91_meant (by simp) (by decide)).2 demo_works

/-- **C91** as it is: with one value the levels work exactly if `Compare` and `Set` do, and an option then is as big as the value; without values
there are no levels.  Missing: more than one value, which does not compile. -/
theorem C91_levels_partial (hvs : vs.length ≤ 1) :
    ∃ t, traits cmp put vs = some t ∧ t.maxLevel = vs.length ∧ (vs ≠ [] → (LawfulTraits t n Valid vs.length ↔ Works n Valid cmp put vs)) ∧
      ∀ pw a, (Ty.option (.custom n a t Valid)).size pw = if vs = [] then roundTo (n + 1) a else n := by
  match vs, hvs with
  | [], _ => exact ⟨noTraits, rfl, rfl, fun h => absurd rfl h, fun pw a => rfl⟩
  | [v], _ =>
    refine ⟨meant cmp put [v], ?_, rfl, fun h => C91_meant h (by simp), fun pw a => rfl⟩
    rw [traits, if_neg (by simp), if_pos ((C91_compiles_violated.2 [v].length).2 rfl)]

/-- the test of the library (test/special_traits.test.cpp 177-192) on one byte: `x + 1 == y - 1`, `x = y - 2`, the value -1 -/
example : ∃ t, traits (fun (x : Bytes) (y : Byte) => x.headD 0 + 1 == y - 1) (fun _ y => [y - 2]) [0xFF] = some t ∧
    LawfulTraits t 1 (fun x => x ≠ [0xFD]) 1 := by
  obtain ⟨t, h1, _, h3, _⟩ := C91_levels_partial (n := 1) (Valid := fun x => x ≠ [0xFD]) (cmp := fun (x : Bytes) (y : Byte) => x.headD 0 + 1 == y - 1)
    (put := fun _ y => [y - 2]) (vs := [(0xFF : Byte)]) (by simp)
  refine ⟨t, h1, (h3 (by simp)).2 ⟨?_, by simp, by simp, ?_⟩⟩
  · intro x hx hv v hm
    rw [List.mem_singleton.1 hm]
    match x, hx with
    | [b], _ =>
      have : ∀ b : Byte, b ≠ 0xFD → (b + 1 == (0xFF : Byte) - 1) = false := by decide
      exact this b (by simpa using hv)
  · intro x _ i j v u hi hj hji
    match i, hji with
    | i + 1, _ => simp at hi

/-- **C91** is violated by two and more values: there are no traits, whatever `Compare` and `Set` are -/
theorem C91_many_violated (h : 2 ≤ vs.length) : traits cmp put vs = none := by
  have : ¬ sentinelFCompiles vs.length = true := fun hc => by
    have := (C91_compiles_violated.2 _).1 hc
    omega
  rw [traits, if_neg (by omega), if_neg this]

/-- although these would do -/
example : Works 1 (fun x => x ≠ [7] ∧ x ≠ [9]) (fun (x : Bytes) (v : Byte) => x == [v]) (fun _ v => [v]) [7, 9] ∧
    traits (fun (x : Bytes) (v : Byte) => x == [v]) (fun _ v => [v]) [7, 9] = none := ⟨demo_works, C91_many_violated (by decide)⟩

#print axioms C91_compiles_violated
#print axioms C91_meant
#print axioms C91_levels_partial
#print axioms C91_many_violated

end Opt.SentinelF
