import Verif.Spec.IntSentinel
import Verif.Props.Patterns

/-!
# C70: which integer sentinels work
-/

namespace Opt.IntSentinel

/-! ## Conversions -/

theorem conv_eq_iff (w : Nat) (s : Bool) (x y : Int) :
    (IntTy.int w s).conv x = (IntTy.int w s).conv y ↔ (2 ^ w : Int) ∣ x - y := by
  rw [Int.dvd_iff_emod_eq_zero, ← Int.emod_eq_emod_iff_emod_sub_eq_zero]
  have hp : (0 : Int) < 2 ^ w := Int.pow_pos (by decide)
  have hx := Int.emod_nonneg x (Int.ne_of_gt hp)
  have hy := Int.emod_nonneg y (Int.ne_of_gt hp)
  have hx' := Int.emod_lt_of_pos x hp
  have hy' := Int.emod_lt_of_pos y hp
  cases s
  · exact Iff.rfl
  · simp only [IntTy.conv]
    split <;> split <;> omega

theorem common_bits (t u : IntTy) : ∃ s, common t u = .int (compareBits t u) s := by
  have h : ∀ t : IntTy, ∃ s, t.promote = .int (max 32 t.bits) s := by
    intro t
    cases t with
    | bool => exact ⟨true, rfl⟩
    | int w s =>
      by_cases hw : w < 32
      · exact ⟨true, by simp only [IntTy.promote, if_pos hw, IntTy.bits]; rw [Nat.max_eq_left (by omega)]⟩
      · exact ⟨s, by simp only [IntTy.promote, if_neg hw, IntTy.bits]; rw [Nat.max_eq_right (by omega)]⟩
  obtain ⟨s, hs⟩ := h t
  obtain ⟨s', hs'⟩ := h u
  have e : compareBits t u = max (max 32 t.bits) (max 32 u.bits) := by simp only [compareBits]; omega
  simp only [common, hs, hs']
  rw [e]
  generalize max 32 t.bits = a
  generalize max 32 u.bits = b
  split
  · exact ⟨s, rfl⟩
  · split
    · split
      · exact ⟨false, by rw [Nat.max_eq_right (by omega)]⟩
      · exact ⟨true, by rw [Nat.max_eq_left (by omega)]⟩
    · split
      · exact ⟨false, by rw [Nat.max_eq_left (by omega)]⟩
      · exact ⟨true, by rw [Nat.max_eq_right (by omega)]⟩

theorem equal_iff (T : IntTy) (c : Const) (x : Int) : equal T c.ty x c.val = true ↔ Same T c x := by
  obtain ⟨s, hs⟩ := common_bits T c.ty
  simp only [equal, hs, decide_eq_true_eq]
  exact conv_eq_iff _ _ _ _

theorem conv_has (T : IntTy) (h : T.WF) (v : Int) : T.Has (T.conv v) := by
  cases T with
  | bool => simp only [IntTy.conv, IntTy.Has]; split <;> omega
  | int w s =>
    have hw : 1 ≤ w := by simp only [IntTy.WF] at h; omega
    have hp : (0 : Int) < 2 ^ w := Int.pow_pos (by decide)
    have hx := Int.emod_nonneg v (Int.ne_of_gt hp)
    have hx' := Int.emod_lt_of_pos v hp
    have e : (2 : Int) ^ w = 2 * 2 ^ (w - 1) := by
      obtain ⟨k, rfl⟩ : ∃ k, w = k + 1 := ⟨w - 1, by omega⟩
      rw [Nat.add_sub_cancel, Int.pow_succ, Int.mul_comm]
    cases s
    · exact ⟨hx, hx'⟩
    · simp only [IntTy.conv, IntTy.Has]
      split <;> omega

/-- two values of a type that differ by a multiple of the modulus are the same -/
theorem has_unique (T : IntTy) (h : T.WF) {x y : Int} (hx : T.Has x) (hy : T.Has y) (d : (2 ^ T.bits : Int) ∣ x - y) :
    x = y := by
  obtain ⟨k, hk⟩ := d
  cases T with
  | bool => simp only [IntTy.Has, IntTy.bits] at *; omega
  | int w s =>
    simp only [IntTy.WF] at h
    rcases h with rfl | rfl | rfl | rfl <;> cases s <;> simp only [IntTy.Has, IntTy.bits] at * <;> omega

theorem same_dvd {T : IntTy} {c : Const} {x : Int} (h : Same T c x) {n : Nat} (hn : n ≤ compareBits T c.ty) :
    (2 ^ n : Int) ∣ x - c.val := by
  refine Int.dvd_trans ?_ h
  exact ⟨2 ^ (compareBits T c.ty - n), by rw [← Int.pow_add, Nat.add_sub_cancel' hn]⟩

/-- the only value of `T` that can compare equal to the constant is the one it converts to -/
theorem same_eq_conv {T : IntTy} {c : Const} (hT : T.WF) (hc : c.WF) {x : Int} (hx : T.Has x) (h : Same T c x) :
    x = T.conv c.val := by
  cases T with
  | int w s =>
    refine has_unique (.int w s) hT hx (conv_has _ hT _) ?_
    have h1 : (2 ^ w : Int) ∣ x - c.val := same_dvd h (by simp only [compareBits, IntTy.bits]; omega)
    have h2 : (IntTy.int w s).conv ((IntTy.int w s).conv c.val) = (IntTy.int w s).conv c.val := by
      have hh := conv_has (.int w s) hT c.val
      generalize (IntTy.int w s).conv c.val = y at hh
      simp only [IntTy.WF] at hT
      rcases hT with rfl | rfl | rfl | rfl <;> cases s <;> simp only [IntTy.Has, IntTy.conv] at * <;> (try split) <;> omega
    have h3 := (conv_eq_iff w s _ _).1 h2
    have := Int.dvd_sub h1 h3
    rw [show x - c.val - ((IntTy.int w s).conv c.val - c.val) = x - (IntTy.int w s).conv c.val by omega] at this
    exact this
  | bool =>
    obtain ⟨hw, hv⟩ := hc
    obtain ⟨k, hk⟩ := h
    obtain ⟨⟨⟩ | ⟨w, s⟩, v⟩ := c
    · have e : compareBits .bool .bool = 32 := rfl
      simp only [IntTy.Has, IntTy.conv] at *
      rw [e] at hk
      split <;> omega
    · simp only [IntTy.WF] at hw
      rcases hw with rfl | rfl | rfl | rfl <;> cases s <;>
        simp only [IntTy.Has, IntTy.conv, compareBits, IntTy.bits, Nat.reduceLeDiff, Nat.max_def, if_true, if_false, reduceIte] at * <;>
        split <;> omega

theorem reachable_iff {T : IntTy} {c : Const} (hT : T.WF) (hc : c.WF) : Reachable T c ↔ Same T c (T.conv c.val) := by
  constructor
  · intro ⟨x, hx, h⟩
    exact same_eq_conv hT hc hx h ▸ h
  · intro h
    exact ⟨_, conv_has T hT _, h⟩

/-! ## The search for the level -/

theorem get_eq {A V : Type} (eq : A → V → Bool) (x : A) : ∀ (vs : List V) (k : U64), vs ≠ [] →
    sentinelGet eq vs k x = if vs.findIdx (eq x) < vs.length then k + BitVec.ofNat 64 (vs.findIdx (eq x)) else BitVec.allOnes 64
  | [], _, h => absurd rfl h
  | [v], k, _ => by
    cases h : eq x v <;> simp [sentinelGet, List.findIdx_cons, h]
  | v :: u :: us, k, _ => by
    rw [sentinelGet]
    cases h : eq x v with
    | true => simp [List.findIdx_cons, h]
    | false =>
      have := get_eq eq x (u :: us) (k + 1) (by simp)
      rw [this]
      rw [List.findIdx_cons (l := u :: us), h]
      simp only [Bool.false_eq_true, if_false, cond_false, List.length_cons, Nat.add_lt_add_iff_right]
      split
      · rw [BitVec.add_assoc, show BitVec.ofNat 64 ((u :: us).findIdx (eq x) + 1) = 1#64 + BitVec.ofNat 64 ((u :: us).findIdx (eq x)) by
          rw [Nat.add_comm, BitVec.ofNat_add]]
        rfl
      · rfl

theorem set_eq {A : Type} : ∀ (vs : List A) (i : Nat) (v : A), vs[i]? = some v → vs.length < 2 ^ 64 →
    sentinelSet vs 0 (BitVec.ofNat 64 i) = .ok v := by
  intro vs i v hi hl
  have := sentinelSet_nth vs 0 i hi (by simpa using hl)
  rwa [show (0 : U64) + BitVec.ofNat 64 i = BitVec.ofNat 64 i from BitVec.zero_add _] at this

theorem getLevel_eq_iff {T : IntTy} {vs : List Const} (hl : vs.length < 2 ^ 64) (x : Int) (i : Nat) (hi : i < vs.length) :
    getLevel T vs x = BitVec.ofNat 64 i ↔ Same T vs[i] x ∧ ∀ j (hj : j < i), ¬ Same T (vs[j]'(by omega)) x := by
  have hne : vs ≠ [] := by rintro rfl; simp at hi
  rw [getLevel, get_eq _ _ _ _ hne]
  have hz : ∀ n : Nat, (0 : U64) + BitVec.ofNat 64 n = BitVec.ofNat 64 n := fun n => BitVec.zero_add _
  rw [hz]
  generalize hp : (fun (c : Const) => equal T c.ty x c.val) = p
  have hs : ∀ j (hj : j < vs.length), p vs[j] = true ↔ Same T vs[j] x := by
    intro j hj; subst hp; exact equal_iff T _ x
  have hne' : ∀ m n : Nat, m < 2 ^ 64 → n < 2 ^ 64 → (BitVec.ofNat 64 m = BitVec.ofNat 64 n ↔ m = n) := by
    intro m n hm hn
    constructor
    · intro h
      have := congrArg BitVec.toNat h
      simpa [BitVec.toNat_ofNat, Nat.mod_eq_of_lt hm, Nat.mod_eq_of_lt hn] using this
    · rintro rfl; rfl
  by_cases hf : vs.findIdx p < vs.length
  · rw [if_pos hf, hne' _ _ (by omega) (by omega), List.findIdx_eq hi, hs i hi]
    refine and_congr_right fun _ => ?_
    constructor
    · intro h j hj hs'
      have := h j hj
      rw [(hs j (by omega)).2 hs'] at this
      cases this
    · intro h j hj
      have := h j hj
      rw [← hs j (by omega)] at this
      simpa using this
  · rw [if_neg hf]
    constructor
    · intro h
      have := congrArg BitVec.toNat h
      simp [BitVec.toNat_ofNat] at this
      omega
    · intro h
      exact absurd (List.findIdx_lt_length_of_exists ⟨vs[i], List.getElem_mem hi, (hs i hi).2 h.1⟩) hf

/-! ## C70 -/

/-- C70: every level of `sentinel<T, V0, ...>` can be stored and read back exactly when every `Vi` compares equal to some
value of `T`, and no value of `T` compares equal to two of them.  In particular the types of the values need not be `T`. -/
theorem C70_round_trips {T : IntTy} {vs : List Const} (hT : T.WF) (hvs : ∀ c ∈ vs, c.WF) (hl : vs.length < 2 ^ 64) :
    RoundTrips T vs ↔ (∀ c ∈ vs, Reachable T c) ∧ vs.Pairwise (Apart T) := by
  have hset : ∀ i (hi : i < vs.length), setLevel T vs (BitVec.ofNat 64 i) = .ok (T.conv vs[i].val) := by
    intro i hi
    exact set_eq _ i _ (by simp [hi]) (by simpa using hl)
  have hone : ∀ i (hi : i < vs.length), (∃ x, T.Has x ∧ setLevel T vs (BitVec.ofNat 64 i) = .ok x ∧
      getLevel T vs x = BitVec.ofNat 64 i) ↔
      Same T vs[i] (T.conv vs[i].val) ∧ ∀ j (hj : j < i), ¬ Same T (vs[j]'(by omega)) (T.conv vs[i].val) := by
    intro i hi
    rw [← getLevel_eq_iff hl _ i hi]
    constructor
    · rintro ⟨x, _, h1, h2⟩
      rw [hset i hi] at h1
      cases h1
      exact h2
    · intro h
      exact ⟨_, conv_has T hT _, hset i hi, h⟩
  constructor
  · intro h
    refine ⟨fun c hc => ?_, ?_⟩
    · obtain ⟨i, hi, rfl⟩ := List.mem_iff_getElem.1 hc
      exact (reachable_iff hT (hvs _ hc)).2 ((hone i hi).1 (h i hi)).1
    · rw [List.pairwise_iff_getElem]
      intro i j hi hj hij x hx hs
      have h2 := ((hone j hj).1 (h j hj)).2 i hij
      rw [same_eq_conv hT (hvs _ (List.getElem_mem hj)) hx hs.2] at hs
      exact h2 hs.1
  · rintro ⟨h1, h2⟩ i hi
    have hr := (reachable_iff hT (hvs _ (List.getElem_mem hi))).1 (h1 _ (List.getElem_mem hi))
    refine (hone i hi).2 ⟨hr, fun j hj hs => ?_⟩
    exact List.pairwise_iff_getElem.1 h2 j i (by omega) hi hj _ (conv_has T hT _) ⟨hs, hr⟩

/-- `sentinel<unsigned char, 1, 300>`: the second value is no `unsigned char`, so its level is lost -/
example : ¬ RoundTrips (.int 8 false) [⟨.int 32 true, 1⟩, ⟨.int 32 true, 300⟩] := by
  rw [C70_round_trips (by simp [IntTy.WF]) (by simp [Const.WF, IntTy.WF, IntTy.Has]) (by decide)]
  rintro ⟨h, _⟩
  obtain ⟨x, hx, k, hk⟩ := h ⟨.int 32 true, 300⟩ (by simp)
  rw [show compareBits (.int 8 false) (.int 32 true) = 32 from rfl] at hk
  simp only [IntTy.Has] at hx hk
  omega

/-- `sentinel<int, ~0ull, 5>`: `~0ull` is no `int`, but `-1` compares equal to it -/
example : RoundTrips (.int 32 true) [⟨.int 64 false, 2 ^ 64 - 1⟩, ⟨.int 32 true, 5⟩] := by
  rw [C70_round_trips (by simp [IntTy.WF]) (by simp [Const.WF, IntTy.WF, IntTy.Has]) (by decide)]
  refine ⟨?_, ?_⟩
  · intro c hc
    simp only [List.mem_cons, List.not_mem_nil, or_false] at hc
    rcases hc with rfl | rfl
    · exact ⟨-1, by decide, -1, by decide⟩
    · exact ⟨5, by decide, 0, by decide⟩
  · simp only [List.pairwise_cons, List.mem_cons, List.not_mem_nil, or_false, forall_eq]
    refine ⟨?_, by simp, .nil⟩
    rintro x hx ⟨⟨k, hk⟩, ⟨l, hl⟩⟩
    rw [show compareBits (.int 32 true) (.int 64 false) = 64 from rfl] at hk
    rw [show compareBits (.int 32 true) (.int 32 true) = 32 from rfl] at hl
    simp only [IntTy.Has] at hx hk hl
    omega

theorem hasValue_iff {T : IntTy} {c : Const} {vs : List Const} (hl : (c :: vs).length < 2 ^ 64) (x : Int) :
    hasValue T (c :: vs) x = false ↔ Same T c x := by
  have := getLevel_eq_iff (T := T) hl x 0 (by simp)
  rw [show hasValue T (c :: vs) x = false ↔ getLevel T (c :: vs) x = BitVec.ofNat 64 0 by simp [hasValue], this]
  exact ⟨fun h => h.1, fun h => ⟨h, fun j hj => absurd hj (Nat.not_lt_zero _)⟩⟩

/-- C70: a default constructed (or reset) `option<sentinel<T, V0, ...>>` is empty exactly when some value of `T` compares equal
to `V0`; otherwise the check after the construction fails, for every such option. -/
theorem C70_reset {T : IntTy} {c : Const} {vs : List Const} (hT : T.WF) (hc : c.WF) (hl : (c :: vs).length < 2 ^ 64) :
    (Reachable T c → ∃ x, T.Has x ∧ reset T (c :: vs) = .ok x ∧ hasValue T (c :: vs) x = false) ∧
    (¬ Reachable T c → reset T (c :: vs) = .verify) := by
  have hset : setLevel T (c :: vs) 0 = .ok (T.conv c.val) := set_eq _ 0 _ (by simp) (by simpa using hl)
  rw [reachable_iff hT hc]
  refine ⟨fun h => ⟨T.conv c.val, conv_has T hT _, ?_, (hasValue_iff hl _).2 h⟩, fun h => ?_⟩
  · simp only [reset, hset, Res.bind, (hasValue_iff hl _).2 h, Bool.not_false, verifyThen_true]
  · have : hasValue T (c :: vs) (T.conv c.val) = true := by
      rw [← hasValue_iff hl] at h; simpa using h
    simp only [reset, hset, Res.bind, this, Bool.not_true, verifyThen_false]

/-- `sentinel<unsigned, -1>`: `-1` converts to `4294967295`, which compares equal to `-1` -/
example : ∃ x, (IntTy.int 32 false).Has x ∧ reset (.int 32 false) [⟨.int 32 true, -1⟩] = .ok x ∧
    hasValue (.int 32 false) [⟨.int 32 true, -1⟩] x = false :=
  (C70_reset (by simp [IntTy.WF]) (by simp [Const.WF, IntTy.WF, IntTy.Has]) (by decide)).1
    ⟨2 ^ 32 - 1, by decide, 1, by decide⟩

/-- C70: constructing the option from a value fails the check exactly for the values that compare equal to `V0`; a value equal
to one of the others is stored. -/
theorem C70_engage {T : IntTy} {c : Const} {vs : List Const} (hl : (c :: vs).length < 2 ^ 64) (x : Int) :
    (Same T c x → engage T (c :: vs) x = .verify) ∧
    (¬ Same T c x → engage T (c :: vs) x = .ok x ∧ hasValue T (c :: vs) x = true) := by
  rw [← hasValue_iff (vs := vs) hl x]
  cases h : hasValue T (c :: vs) x <;> simp [engage, h]

/-- `option<sentinel<int, -1, -2>>{-2}` holds a value -/
example : engage (.int 32 true) [⟨.int 32 true, -1⟩, ⟨.int 32 true, -2⟩] (-2) = .ok (-2) :=
  ((C70_engage (by decide) (-2)).2 (fun ⟨k, hk⟩ => by
    rw [show compareBits (.int 32 true) (.int 32 true) = 32 from rfl] at hk
    dsimp only at hk
    omega)).1

/-- C70: a constant that is a value of `T` always works. -/
theorem C70_in_range {T : IntTy} {c : Const} (h : T.Has c.val) : Reachable T c :=
  ⟨c.val, h, by rw [Same, Int.sub_self]; exact Int.dvd_zero _⟩

example : Reachable (.int 8 false) ⟨.int 32 true, 255⟩ := C70_in_range (by decide)

/-- C70: for a type as wide as `int`, every constant of a type that is not wider works, whatever its value. -/
theorem C70_wide {w : Nat} {s : Bool} {c : Const} (hT : (IntTy.int w s).WF) (hw : 32 ≤ w) (hb : c.ty.bits ≤ w) :
    Reachable (.int w s) c := by
  refine ⟨_, conv_has _ hT c.val, ?_⟩
  have e : compareBits (.int w s) c.ty = w := by simp only [compareBits, IntTy.bits] at *; omega
  rw [Same, e]
  refine (conv_eq_iff w s _ _).1 ?_
  have hh := conv_has (.int w s) hT c.val
  generalize (IntTy.int w s).conv c.val = y at hh
  simp only [IntTy.WF] at hT
  rcases hT with rfl | rfl | rfl | rfl <;> cases s <;> simp only [IntTy.Has, IntTy.conv] at * <;> (try split) <;> omega

/-- `sentinel<unsigned, -1>` -/
example : Reachable (.int 32 false) ⟨.int 32 true, -1⟩ := C70_wide (by simp [IntTy.WF]) (by decide) (by decide)

/-- C70 is violated by every negative constant for a narrow unsigned type (and for `bool`), although the constant converts to a
value of the type: `option<sentinel<unsigned char, -1>>` cannot be default constructed. -/
theorem C70_violated_narrow {T : IntTy} {c : Const} {vs : List Const} {w : Nat}
    (hT : T = .bool ∨ T = .int 8 false ∨ T = .int 16 false) (hc : c.WF) (hs : c.ty = .int w true) (hneg : c.val < 0)
    (hl : (c :: vs).length < 2 ^ 64) : reset T (c :: vs) = .verify := by
  refine (C70_reset ?_ hc hl).2 ?_
  · rcases hT with rfl | rfl | rfl <;> simp [IntTy.WF]
  · rintro ⟨x, hx, k, hk⟩
    obtain ⟨ty, v⟩ := c
    dsimp only at hs hneg hk
    subst hs
    obtain ⟨h1, h2⟩ := hc
    simp only [IntTy.WF] at h1
    rcases h1 with rfl | rfl | rfl | rfl <;> rcases hT with rfl | rfl | rfl <;>
      simp only [IntTy.Has, compareBits, IntTy.bits, Nat.reduceLeDiff, Nat.max_def, if_true, if_false, reduceIte] at * <;> omega

/-- `option<sentinel<unsigned char, -1>>` -/
example : reset (.int 8 false) [⟨.int 32 true, -1⟩] = .verify :=
  C70_violated_narrow (.inr (.inl rfl)) (by simp [Const.WF, IntTy.WF, IntTy.Has]) rfl (by decide) (by decide)

/-- C70: the same for a specialisation of `sentinel_option_traits`: level 0 is read back exactly when some value of `T` compares
equal to `sentinel_value`. -/
theorem C70_trait {T : IntTy} {c : Const} (hT : T.WF) (hc : c.WF) :
    (∃ x, traitSet T c 0 = .ok x ∧ traitGet T c x = 0) ↔ Reachable T c := by
  rw [reachable_iff hT hc, ← equal_iff]
  simp only [traitSet, if_true, Res.ok.injEq, exists_eq_left', traitGet]
  cases equal T c.ty (T.conv c.val) c.val <;> decide

example : ¬ ∃ x, traitSet (.int 16 false) ⟨.int 32 true, -1⟩ 0 = .ok x ∧ traitGet (.int 16 false) ⟨.int 32 true, -1⟩ x = 0 := by
  rw [C70_trait (by simp [IntTy.WF]) (by simp [Const.WF, IntTy.WF, IntTy.Has])]
  rintro ⟨x, hx, k, hk⟩
  rw [show compareBits (.int 16 false) (.int 32 true) = 32 from rfl] at hk
  simp only [IntTy.Has] at hx hk
  omega

end Opt.IntSentinel
