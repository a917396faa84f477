import Verif.Props.Levels
import Verif.Lemmas.EnumSentinel
import Verif.Model.NestedOps
import Verif.Spec.Guide

/-!
# C68 The guide to user defined traits is right
-/

namespace Opt

/-- the traits of `n` options around a type that has enough levels -/
theorem nest_traits {pw : Nat} (T : Ty) (n : Nat) (hn : n ≤ (T.traits pw).maxLevel) :
    ((nest n T).traits pw).maxLevel = (T.traits pw).maxLevel - n ∧ (nest n T).size pw = T.size pw ∧
    (∀ bs, ((nest n T).traits pw).getLevel bs = (T.traits pw).getLevel bs - BitVec.ofNat 64 n) ∧
    (∀ bs l, ((nest n T).traits pw).setLevel bs l = (T.traits pw).setLevel bs (l + BitVec.ofNat 64 n)) := by
  induction n with
  | zero => exact ⟨rfl, rfl, fun bs => (BitVec.sub_zero _).symm, fun bs l => by rw [BitVec.add_zero]; rfl⟩
  | succ n ih =>
    obtain ⟨h1, h2, h3, h4⟩ := ih (by omega)
    have hm : ((nest n T).traits pw).maxLevel ≥ 1 := by omega
    have e : (nest (n + 1) T).traits pw = availableOptionTraits ((nest n T).traits pw) := by
      rw [nest, option_traits_eq, optionTraits, if_pos hm]
    refine ⟨by rw [e, availableOptionTraits]; simp only [h1]; omega, by rw [nest, option_size_avail hm, h2], ?_, ?_⟩
    · intro bs
      rw [e]
      show ((nest n T).traits pw).getLevel bs - 1 = _
      rw [h3, BitVec.sub_sub, BitVec.ofNat_add]
      rfl
    · intro bs l
      rw [e]
      show ((nest n T).traits pw).setLevel bs (l + 1) = _
      rw [h4, BitVec.add_assoc]
      congr 2
      rw [Nat.add_comm, BitVec.ofNat_add]
      rfl

/-- C68 ("Level means the depth of emptiness of nested `opt::option`s", docs/custom_traits_guide.md 37-41): in `n` options
around a type with at least `n` levels, level `l` below `n` means that the `n - 1 - l` outer ones are engaged and the next
is empty; from `n` up all are engaged.  For any type, any bytes. -/
theorem C68_depth_of_level {pw : Nat} (T : Ty) (n : Nat) (hn : n ≤ (T.traits pw).maxLevel)
    (hmax : (T.traits pw).maxLevel < 2 ^ 64) (bs : Bytes) (hbs : bs.length = T.size pw) :
    engagedDepth pw n T bs =
      if ((T.traits pw).getLevel bs).toNat < n then n - 1 - ((T.traits pw).getLevel bs).toNat else n := by
  induction n with
  | zero => rfl
  | succ n ih =>
    obtain ⟨h1, h2, h3, _⟩ := nest_traits (pw := pw) T n (by omega)
    have hm : ((nest n T).traits pw).maxLevel ≥ 1 := by omega
    rw [engagedDepth, Ty.payload, rd_all (by rw [hbs, h2]), ih (by omega)]
    have hv : (nest n T).hasValue pw bs = decide (((T.traits pw).getLevel bs).toNat ≠ n) := by
      rw [Ty.hasValue, if_pos hm, h3]
      generalize (T.traits pw).getLevel bs = g
      rw [Bool.eq_iff_iff, decide_eq_true_iff, decide_eq_true_iff]
      refine not_congr ?_
      have hg := g.isLt
      rw [← BitVec.toNat_inj, BitVec.toNat_sub, BitVec.toNat_ofNat, Nat.mod_eq_of_lt (a := n) (by omega)]
      show _ = 0 ↔ _
      omega
    rw [hv]
    generalize ((T.traits pw).getLevel bs).toNat = g
    by_cases hg : g = n
    · subst hg; simp
    · simp only [decide_eq_true_eq, ne_eq, hg, not_false_eq_true, if_true]
      split <;> split <;> omega

/-- C68: resetting the option at depth `k` (counted from outside) sets exactly the level `n - 1 - k` of the innermost type
and does nothing else. -/
theorem C68_reset_level {pw : Nat} (T : Ty) (n k : Nat) (hn : n ≤ (T.traits pw).maxLevel) (hk : k < n) (bs : Bytes)
    (hbs : bs.length = T.size pw)
    (hlen : ∀ l bs', (T.traits pw).setLevel bs l = .ok bs' → bs'.length = T.size pw) :
    resetAt pw n k T bs = (T.traits pw).setLevel bs (BitVec.ofNat 64 (n - 1 - k)) := by
  induction n generalizing k with
  | zero => omega
  | succ n ih =>
    obtain ⟨h1, h2, _, h4⟩ := nest_traits (pw := pw) T n (by omega)
    have hm : ((nest n T).traits pw).maxLevel ≥ 1 := by omega
    cases k with
    | zero =>
      rw [resetAt, Ty.storeNone, if_pos hm, h4]
      congr 1
      exact BitVec.zero_add _
    | succ k =>
      rw [resetAt, Ty.payload, rd_all (by rw [hbs, h2]), ih k (by omega) (by omega)]
      have : n + 1 - 1 - (k + 1) = n - 1 - k := by omega
      rw [this]
      cases hs : (T.traits pw).setLevel bs (BitVec.ofNat 64 (n - 1 - k)) with
      | ok bs' =>
        have hl := hlen _ _ hs
        show Res.ok (wr bs 0 bs') = _
        rw [wr, List.drop_eq_nil_of_le (by omega)]
        simp
      | throw => rfl
      | verify => rfl
      | ub => rfl

/-- seven options around a `bool` that holds 5, which is level 3: three are engaged -/
example : engagedDepth 64 7 .bool [5] = 3 := C68_depth_of_level (pw := 64) .bool 7 (by decide) (by decide) [5] rfl

/-- C68: `my_type` satisfies the law for user traits, so that everything proved for lawful types applies to it. -/
theorem C68_my_type_lawful (pw : Nat) : myType.WF pw ∧ myType4.WF pw := by
  have key : ∀ max n : Nat, max < 2 ^ 31 → 8 ≤ n → LawfulTraits (myTypeTraits max) n MyTypeLive max := by
    intro max n hmax hn
    refine ⟨by show max < _; omega, ?_, ?_⟩
    · intro bs _ hv
      show max ≤ (if ld 32 bs 0 = -1 then _ else (-1 : U64)).toNat
      rw [if_neg hv, show BitVec.toNat (-1 : U64) = 2 ^ 64 - 1 from rfl]
      omega
    · intro bs l hbs hl
      refine ⟨_, rfl, by rw [st_length _ (by rw [st_length _ (by omega)]; omega), st_length _ (by omega), hbs], ?_⟩
      show (if ld 32 (st 32 (st 32 bs 0 (-1)) 4 (l.setWidth 32)) 0 = -1 then
        (ld 32 (st 32 (st 32 bs 0 (-1)) 4 (l.setWidth 32)) 4).signExtend 64 else -1) = l
      rw [ld_st_disj _ (by rw [st_length _ (by omega)]; omega) (.inl (by decide)), ld_st_same (by decide) _ (by omega),
        if_pos rfl, ld_st_same (by decide) _ (by rw [st_length _ (by omega)]; omega)]
      have := signExtend_cases (v := 64) (l.setWidth 32) (by decide)
      have hx : (l.setWidth 32).toNat = l.toNat := by rw [BitVec.toNat_setWidth]; omega
      apply BitVec.eq_of_toNat_eq
      omega
  exact ⟨by simp only [myType, Ty.WF]; exact key 100 8 (by decide) (by decide),
    by simp only [myType4, Ty.WF]; exact key 10000 12 (by decide) (by decide)⟩

/-- C68 (docs/custom_traits_guide.md 63-123, for any number of options up to 100, any layer and any former value): after
`reset()` of layer `k` of `n`, `x` is -1 and `y` is the level `n - 1 - k`, the `k` outer options are engaged and the next
is empty; and the object has the size of `my_type`. -/
theorem C68_my_type_reset {pw n k : Nat} (hn : n ≤ 100) (hk : k < n) (bs : Bytes) (hbs : bs.length = 8) :
    ∃ bs', resetAt pw n k myType bs = .ok bs' ∧ ld 32 bs' 0 = -1 ∧ (ld 32 bs' 4).toNat = n - 1 - k ∧
      engagedDepth pw n myType bs' = k ∧ bs'.length = 8 ∧ (nest n myType).size pw = 8 := by
  have hmax : (myType.traits pw).maxLevel = 100 := rfl
  obtain ⟨b, hb, hl, hg⟩ : ∃ bs', (myType.traits pw).setLevel bs (BitVec.ofNat 64 (n - 1 - k)) = .ok bs' ∧
      bs'.length = 8 ∧ (myType.traits pw).getLevel bs' = BitVec.ofNat 64 (n - 1 - k) := by
    have h := (C68_my_type_lawful pw).1
    simp only [myType, Ty.WF] at h
    exact h.roundtrip bs _ hbs (by rw [BitVec.toNat_ofNat]; show _ < 100; omega)
  have hb' : b = st 32 (st 32 bs 0 (-1)) 4 ((BitVec.ofNat 64 (n - 1 - k)).setWidth 32) := by
    have : Res.ok (st 32 (st 32 bs 0 (-1)) 4 ((BitVec.ofNat 64 (n - 1 - k)).setWidth 32)) = Res.ok b := hb
    exact (Res.ok.inj this).symm
  refine ⟨b, ?_, ?_, ?_, ?_, hl, (nest_traits myType n (by omega)).2.1⟩
  · rw [C68_reset_level myType n k (by omega) hk bs hbs, hb]
    intro l bs' h
    have : Res.ok (st 32 (st 32 bs 0 (-1)) 4 (l.setWidth 32)) = Res.ok bs' := h
    cases this
    rw [st_length _ (by rw [st_length _ (by omega)]; omega), st_length _ (by omega), hbs]; rfl
  · rw [hb', ld_st_disj _ (by rw [st_length _ (by omega)]; omega) (.inl (by decide)), ld_st_same (by decide) _ (by omega)]
  · rw [hb', ld_st_same (by decide) _ (by rw [st_length _ (by omega)]; omega), BitVec.toNat_setWidth, BitVec.toNat_ofNat]
    omega
  · rw [C68_depth_of_level myType n (by omega) (by rw [hmax]; decide) b hl, hg, BitVec.toNat_ofNat, Nat.mod_eq_of_lt (by omega)]
    split <;> omega

/-- the last step of the example with three options: `c.get().reset()` -/
example : ∃ bs', resetAt 64 3 1 myType [2, 0, 0, 0, 3, 0, 0, 0] = .ok bs' ∧ ld 32 bs' 0 = -1 ∧ (ld 32 bs' 4).toNat = 1 ∧
    engagedDepth 64 3 myType bs' = 1 := by
  obtain ⟨bs', h1, h2, h3, h4, _⟩ := C68_my_type_reset (pw := 64) (n := 3) (k := 1) (by decide) (by decide)
    [2, 0, 0, 0, 3, 0, 0, 0] rfl
  exact ⟨bs', h1, h2, h3, h4⟩

/-- C68 (127-140): a program that writes -1 into `x` of a value with `y` from 0 to `n - 1` empties options: exactly as many
outer ones stay engaged as the level in `y` says. -/
theorem C68_my_type_overwritten {pw n : Nat} (hn : n ≤ 100) (bs : Bytes) (hbs : bs.length = 8) (hx : ld 32 bs 0 = -1)
    (hy : (ld 32 bs 4).toNat < n) : engagedDepth pw n myType bs = n - 1 - (ld 32 bs 4).toNat := by
  rw [C68_depth_of_level myType n hn (by show 100 < 2 ^ 64; decide) bs hbs]
  have hg : (myType.traits pw).getLevel bs = (ld 32 bs 4).signExtend 64 := if_pos hx
  rw [hg]
  have := signExtend_cases (v := 64) (ld 32 bs 4) (by decide)
  rw [if_pos (by omega)]
  omega

/-- the example in the guide: level 1 of two options, then level 0 -/
example : engagedDepth 64 2 myType [255, 255, 255, 255, 1, 0, 0, 0] = 0 ∧
    engagedDepth 64 2 myType [255, 255, 255, 255, 0, 0, 0, 0] = 1 :=
  ⟨C68_my_type_overwritten (pw := 64) (n := 2) (by decide) _ rfl (by decide) (by decide),
   C68_my_type_overwritten (pw := 64) (n := 2) (by decide) _ rfl (by decide) (by decide)⟩

/-- C68 violated (docs/custom_traits_guide.md 258-262): the guide says that an empty `option<my_type_4>` stays empty when 10
is written into the level `y`.  `has_value()` only asks whether the level is 0, so the option becomes engaged, with any
`y` but 0. -/
theorem C68_violated_unchecked {pw : Nat} (bs : Bytes) (hx : ld 32 bs 0 = -1) :
    myType4.hasValue pw bs = decide (ld 32 bs 4 ≠ 0) := by
  have hg : (myType4.traits pw).getLevel bs = (ld 32 bs 4).signExtend 64 := if_pos hx
  have hm : (myType4.traits pw).maxLevel ≥ 1 := by show 10000 ≥ 1; decide
  rw [Ty.hasValue, if_pos hm, hg, Bool.eq_iff_iff, decide_eq_true_iff, decide_eq_true_iff]
  refine not_congr ?_
  have := signExtend_cases (v := 64) (ld 32 bs 4) (by decide)
  have h32 := (ld 32 bs 4).isLt
  rw [← BitVec.toNat_inj, ← BitVec.toNat_inj]
  show _ = 0 ↔ _ = 0
  omega

/-- `y` is 10, `z` is 5 -/
example : myType4.hasValue 64 [255, 255, 255, 255, 10, 0, 0, 0, 5, 0, 0, 0] = true :=
  C68_violated_unchecked (pw := 64) _ (by decide)

/-- C68 violated (docs/custom_traits_guide.md 233-236): with the comparison `value->x == -1;` in place of the assignment,
`reset()` of an option whose `x` is not -1 fails its check; for `my_type_4` as it is meant it succeeds. -/
theorem C68_violated_comparison {pw : Nat} (L : Leaf) (hL : L.trivDtor = true) (bs : Bytes) (hbs : bs.length = 12)
    (hx : ld 32 bs 0 ≠ -1) :
    resetTy pw L myType4Written bs = .verify ∧ ∃ bs', resetTy pw L myType4 bs = .ok ([], bs') := by
  constructor
  · have hn : myType4Written.storeNone pw bs = .ok (st 32 bs 4 0) := rfl
    have hv : myType4Written.hasValue pw (st 32 bs 4 0) = true := by
      have e : (myType4Written.traits pw).getLevel (st 32 bs 4 0) =
          if ld 32 (st 32 bs 4 0) 0 = -1 then (ld 32 (st 32 bs 4 0) 4).signExtend 64 else -1 := rfl
      rw [ld_st_disj _ (by omega) (.inl (by decide)), if_neg hx] at e
      rw [Ty.hasValue, if_pos (by show 10000 ≥ 1; decide), e]
      decide
    rw [resetTy, if_pos hL, hn]
    show verifyThen (decide (10000 = 0) || !myType4Written.hasValue pw (st 32 bs 4 0)) _ = _
    rw [hv]
    rfl
  · have hn : myType4.storeNone pw bs = .ok (st 32 (st 32 bs 0 (-1)) 4 0) := rfl
    have hv : myType4.hasValue pw (st 32 (st 32 bs 0 (-1)) 4 0) = false := by
      rw [C68_violated_unchecked, ld_st_same (by decide) _ (by rw [st_length _ (by omega)]; omega)]
      · rfl
      · rw [ld_st_disj _ (by rw [st_length _ (by omega)]; omega) (.inl (by decide)), ld_st_same (by decide) _ (by omega)]
    refine ⟨st 32 (st 32 bs 0 (-1)) 4 0, ?_⟩
    rw [resetTy, if_pos hL, hn]
    show verifyThen (_ || !myType4.hasValue pw (st 32 (st 32 bs 0 (-1)) 4 0)) _ = _
    rw [hv]
    simp [verifyThen]

/-- all members 0 -/
example : resetTy 64 ⟨true, id⟩ myType4Written (List.replicate 12 0) = .verify :=
  (C68_violated_comparison (pw := 64) ⟨true, id⟩ rfl _ rfl (by decide)).1

/-- C68 (149-179): `my_type_3<T>` can be emptied exactly for the signed integer types and those as wide as `int`.  The guide
enables it for every `T` but `float`: for `unsigned char` and `unsigned short`, 255 + 1 (65535 + 1) is not 0. -/
theorem C68_my_type_3 {pw w : Nat} (hw : w = 8 ∨ w = 16 ∨ w = 32 ∨ w = 64) (sg : Bool) (bs : Bytes) (hbs : bs.length = w / 8) :
    ∃ bs', (myType3 w sg).storeNone pw bs = .ok bs' ∧
      (myType3 w sg).hasValue pw bs' = decide (sg = false ∧ w < 32) := by
  refine ⟨st w bs 0 (-1), rfl, ?_⟩
  have hg : ((myType3 w sg).traits pw).getLevel (st w bs 0 (-1)) = plusOne w sg (ld w (st w bs 0 (-1)) 0) := rfl
  rw [ld_st_same (by omega) _ (by omega)] at hg
  rw [Ty.hasValue, if_pos (by show 1 ≥ 1; decide), hg]
  clear hg hbs
  rcases hw with rfl | rfl | rfl | rfl <;> cases sg <;> decide

/-- `my_type_3<unsigned char>` stays engaged when it is emptied -/
example : ∃ bs', (myType3 8 false).storeNone 64 [7] = .ok bs' ∧ (myType3 8 false).hasValue 64 bs' = true :=
  C68_my_type_3 (pw := 64) (.inl rfl) false [7] rfl

/-- C68 (149-179): for the types where emptying works, -1 is the only value that is taken for an empty option. -/
theorem C68_my_type_3_values {pw w : Nat} (hw : w = 8 ∨ w = 16 ∨ w = 32 ∨ w = 64) (sg : Bool) (h : sg = true ∨ 32 ≤ w) (bs : Bytes) :
    (myType3 w sg).hasValue pw bs = decide (ld w bs 0 ≠ -1) := by
  have hg : ((myType3 w sg).traits pw).getLevel bs = plusOne w sg (ld w bs 0) := rfl
  rw [Ty.hasValue, if_pos (by show 1 ≥ 1; decide), hg, Bool.eq_iff_iff, decide_eq_true_iff, decide_eq_true_iff]
  refine not_congr ?_
  generalize ld w bs 0 = x
  have hx := x.isLt
  have h1 : BitVec.toNat (1 : BitVec 32) = 1 := rfl
  have h2 : BitVec.toNat (1 : BitVec 64) = 1 := rfl
  rw [← BitVec.toNat_inj, ← BitVec.toNat_inj]
  show _ = 0 ↔ _
  rcases hw with rfl | rfl | rfl | rfl
  · have hsg : sg = true := h.resolve_right (by decide)
    subst hsg
    have e : plusOne 8 true x = (x.signExtend 32 + 1).signExtend 64 := rfl
    have h3 := signExtend_cases (v := 32) x (by decide)
    have h4 := signExtend_cases (v := 64) (x.signExtend 32 + 1) (by decide)
    rw [BitVec.toNat_add] at h4
    rw [e, show BitVec.toNat (-1 : BitVec 8) = 255 from rfl]
    omega
  · have hsg : sg = true := h.resolve_right (by decide)
    subst hsg
    have e : plusOne 16 true x = (x.signExtend 32 + 1).signExtend 64 := rfl
    have h3 := signExtend_cases (v := 32) x (by decide)
    have h4 := signExtend_cases (v := 64) (x.signExtend 32 + 1) (by decide)
    rw [BitVec.toNat_add] at h4
    rw [e, show BitVec.toNat (-1 : BitVec 16) = 65535 from rfl]
    omega
  · have h4 := signExtend_cases (v := 64) (x + 1) (by decide)
    rw [BitVec.toNat_add] at h4
    rw [show BitVec.toNat (-1 : BitVec 32) = 2 ^ 32 - 1 from rfl]
    cases sg
    · have e : plusOne 32 false x = (x + 1).setWidth 64 := rfl
      rw [e, BitVec.toNat_setWidth, BitVec.toNat_add]
      omega
    · have e : plusOne 32 true x = (x + 1).signExtend 64 := rfl
      rw [e]
      omega
  · have e : plusOne 64 sg x = x + 1 := by
      cases sg
      · exact BitVec.setWidth_eq _
      · exact BitVec.signExtend_eq _
    rw [e, BitVec.toNat_add, show BitVec.toNat (-1 : BitVec 64) = 2 ^ 64 - 1 from rfl]
    omega

/-- `my_type_3<int>` holding 5, and empty -/
example : (myType3 32 true).hasValue 64 [5, 0, 0, 0] = true ∧ (myType3 32 true).hasValue 64 [255, 255, 255, 255] = false :=
  ⟨C68_my_type_3_values (pw := 64) (by decide) true (.inl rfl) _, C68_my_type_3_values (pw := 64) (by decide) true (.inl rfl) _⟩

/-- C68 (277-306): with the guide's traits, a `float` is an empty option exactly when it is one of the two zeros; emptying
stores the positive one. -/
theorem C68_zero_float {pw : Nat} (bs : Bytes) :
    (zeroFloat.hasValue pw bs = true ↔ (ld 32 bs 0).toNat % 2 ^ 31 ≠ 0) ∧ zeroFloat.storeNone pw bs = .ok (st 32 bs 0 0) := by
  refine ⟨?_, rfl⟩
  have hg : (zeroFloat.traits pw).getLevel bs = if ld 32 bs 0 = 0 ∨ ld 32 bs 0 = 0x80000000 then 0 else -1 := rfl
  rw [Ty.hasValue, if_pos (by show 1 ≥ 1; decide), hg, decide_eq_true_iff]
  refine not_congr ?_
  have hx := (ld 32 bs 0).isLt
  have h0 : ld 32 bs 0 = 0 ↔ (ld 32 bs 0).toNat = 0 := by rw [← BitVec.toNat_inj]; rfl
  have h1 : ld 32 bs 0 = 0x80000000 ↔ (ld 32 bs 0).toNat = 2 ^ 31 := by rw [← BitVec.toNat_inj]; rfl
  split
  · rename_i h
    rw [h0, h1] at h
    simp only [true_iff]
    omega
  · rename_i h
    rw [h0, h1] at h
    exact ⟨fun h' => absurd h' (by decide), fun h' => by omega⟩

/-- 1.0 and -0.0 -/
example : zeroFloat.hasValue 64 [0, 0, 0x80, 0x3F] = true ∧ zeroFloat.hasValue 64 [0, 0, 0, 0x80] = false := by decide

/-- C68 (194-208): a specialisation with `max_level` 0 disables the optimisation: the option is larger than the type, its
state is the byte after the value, and the other members of the specialisation make no difference. -/
theorem C68_disabled {pw size align : Nat} (hal : 0 < align) (t : Traits) :
    (disabled size align t).size pw < (Ty.option (disabled size align t)).size pw ∧
    (∀ bs, (disabled size align t).hasValue pw bs = decide (ld 8 bs size ≠ 0)) ∧
    (∀ bs, (disabled size align t).storeNone pw bs = .ok (st 8 bs size 0)) ∧
    (∀ bs v, (disabled size align t).storeValue pw bs v = st 8 (wr bs 0 v) size 1) := by
  have hm : ¬ ((disabled size align t).traits pw).maxLevel ≥ 1 := by show ¬ 0 ≥ 1; decide
  refine ⟨?_, fun bs => if_neg hm, fun bs => if_neg hm, fun bs v => if_neg hm⟩
  rw [option_size_flag hm]
  have := roundTo_ge ((disabled size align t).size pw + 1) (a := (disabled size align t).align pw) hal
  omega

/-- `double` with the optimisation disabled: 16 bytes -/
example : (Ty.option (disabled 8 8 (boolTraits))).size 64 = 16 := by decide

end Opt
