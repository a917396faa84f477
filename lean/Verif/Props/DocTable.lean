import Verif.Props.Levels
import Verif.Props.Patterns
import Verif.Spec.DocTable

/-!
# C67 The documented numbers and ranges of levels are right
-/

namespace Opt

/-- the difference to the start of a range is the level exactly for the word that stores it -/
theorem sub_level {w : Nat} (hw : w ≤ 64) (x s : BitVec w) (l : U64) (hl : l.toNat < 2 ^ w) :
    (x - s).setWidth 64 = l ↔ x = s + l.setWidth w := by
  have h64 : 2 ^ w ≤ 2 ^ 64 := Nat.pow_le_pow_right (by decide) hw
  constructor
  · intro h
    have : x - s = l.setWidth w := by
      rw [← h, BitVec.setWidth_setWidth_of_le _ hw, BitVec.setWidth_eq]
    rw [← this, BitVec.add_comm, BitVec.sub_add_cancel]
  · intro h
    rw [h, BitVec.add_comm, BitVec.add_sub_cancel]
    apply BitVec.eq_of_toNat_eq
    rw [BitVec.toNat_setWidth, BitVec.toNat_setWidth, Nat.mod_eq_of_lt hl, Nat.mod_eq_of_lt (by omega)]

/-- the documented contents of a counting word, as a bit vector -/
theorem ofInt_level {w : Nat} {s : BitVec w} {first : Int} (h : BitVec.ofInt w first = s) (l : U64) :
    BitVec.ofInt w (first + (l.toNat : Int)) = s + l.setWidth w := by
  rw [BitVec.ofInt_add, h, BitVec.ofInt_natCast]
  congr 1
  apply BitVec.eq_of_toNat_eq
  rw [BitVec.toNat_setWidth, BitVec.toNat_ofNat]

/-- bytes outside of a word that is written stay as they are -/
theorem st_outside {w : Nat} {bs : Bytes} {off : Nat} (v : BitVec w) (h : off + w / 8 ≤ bs.length) (k : Nat)
    (hk : k < off ∨ off + w / 8 ≤ k) : (st w bs off v)[k]? = bs[k]? := by
  have hl : (leBytes (w / 8) v.toNat).length = w / 8 := leBytes_length _ _
  rw [st, wr]
  rcases hk with hk | hk
  · rw [List.append_assoc, List.getElem?_append_left (by rw [List.length_take]; omega), List.getElem?_take,
      if_pos hk]
  · rw [List.getElem?_append_right (by rw [List.length_append, List.length_take, hl]; omega), List.getElem?_drop,
      List.length_append, List.length_take, hl]
    congr 1
    omega

/-- a traits class that counts up in one word is described by a row of one word -/
theorem describes_one {t : Traits} {n N off w : Nat} {s : BitVec w} {first : Int} (hw8 : w % 8 = 0) (hw : w ≤ 64)
    (hN : N ≤ 2 ^ w) (hoff : off + w / 8 ≤ n) (hs : BitVec.ofInt w first = s) (hmax : t.maxLevel = N)
    (hset : ∀ bs l, t.setLevel bs l = verifyThen (decide (l.toNat < N)) (.ok (st w bs off (s + l.setWidth w))))
    (hget : ∀ bs, t.getLevel bs = (ld w bs off - s).setWidth 64) : (DocRow.one N off w first).Describes t n where
  levels := hmax
  set := by
    intro bs l hbs hl
    have hl' : l.toNat < N := hl
    refine ⟨st w bs off (s + l.setWidth w), by rw [hset, verifyThen_decide hl'], ?_, by rw [st_length _ (by omega), hbs], ?_⟩
    · intro x hx
      rw [DocRow.one] at hx
      simp only [List.mem_singleton] at hx
      subst hx
      show ld w _ off = BitVec.ofInt w (first + (l.toNat : Int))
      rw [ld_st_same hw8 _ (by omega), ofInt_level hs]
    · intro k hk
      exact st_outside _ (by omega) k (hk ⟨off, w, first, true⟩ (by simp [DocRow.one]))
  get := by
    intro bs l hbs hl
    have hl' : l.toNat < N := hl
    rw [hget, sub_level hw _ _ _ (by omega), ← ofInt_level hs]
    simp [DocRow.Holds, DocRow.one, DocWord.Holds]
  refused := by
    intro bs l hl
    have hl' : ¬ l.toNat < N := Nat.not_lt.mpr hl
    rw [hset, decide_eq_false hl', verifyThen_false]

/-- the start of a range, added before or after the conversion to the narrower type -/
theorem add_level {w : Nat} (hw : w ≤ 64) (s : BitVec w) (l : U64) :
    (s.setWidth 64 + l).setWidth w = s + l.setWidth w := by
  rw [BitVec.setWidth_add _ _ hw, BitVec.setWidth_setWidth_of_le _ hw, BitVec.setWidth_eq]

/-- the row about strings -/
theorem describes_string {pw : Nat} (hpw : pw = 32 ∨ pw = 64) (dbg : Bool) :
    ((DocType.string dbg).row pw).Describes (stringTraits pw (.stl dbg)) (stringSize pw (.stl dbg)) := by
  have ho : stringSizeOff pw (.stl dbg) = stlWord pw dbg ∧ stringMarkOff pw (.stl dbg) = stlWord pw dbg + pw / 8 ∧
      stlWord pw dbg + pw / 8 + pw / 8 ≤ stringSize pw (.stl dbg) := by
    rcases hpw with rfl | rfl <;> cases dbg <;> decide
  obtain ⟨ho1, ho2, ho3⟩ := ho
  have hw8 : pw % 8 = 0 := by rcases hpw with rfl | rfl <;> rfl
  have hw : pw ≤ 64 := by rcases hpw with rfl | rfl <;> decide
  have hN : 255 ≤ 2 ^ pw := by rcases hpw with rfl | rfl <;> decide
  have h0 : ∀ l : U64, BitVec.ofInt pw (0 + (l.toNat : Int)) = l.setWidth pw := by
    intro l
    rw [ofInt_level (s := 0#pw) (by rfl), BitVec.zero_add]
  refine ⟨rfl, ?_, ?_, ?_⟩
  · intro bs l hbs hl
    have hl' : l.toNat < 255 := hl
    refine ⟨st pw (st pw bs (stlWord pw dbg) (l.setWidth pw)) (stlWord pw dbg + pw / 8) 0, ?_, ?_, ?_, ?_⟩
    · show verifyThen (decide (l.toNat < 255)) _ = _
      rw [verifyThen_decide hl']
      show Res.ok (st pw (st pw bs (stringSizeOff pw (.stl dbg)) (l.setWidth pw)) (stringMarkOff pw (.stl dbg)) 0) = _
      rw [ho1, ho2]
    · intro x hx
      simp only [DocType.row, List.mem_cons, List.not_mem_nil, or_false] at hx
      rcases hx with rfl | rfl
      · show ld pw _ (stlWord pw dbg) = BitVec.ofInt pw (0 + (l.toNat : Int))
        rw [h0, ld_st_disj _ (by rw [st_length _ (by omega)]; omega) (.inl (by omega)), ld_st_same hw8 _ (by omega)]
      · show ld pw _ _ = BitVec.ofInt pw (0 + 0)
        rw [ld_st_same hw8 _ (by rw [st_length _ (by omega)]; omega)]
        rfl
    · rw [st_length _ (by rw [st_length _ (by omega)]; omega), st_length _ (by omega), hbs]
    · intro k hk
      have h1 : k < stlWord pw dbg ∨ stlWord pw dbg + pw / 8 ≤ k := hk ⟨stlWord pw dbg, pw, 0, true⟩ (by simp [DocType.row])
      have h2 : k < stlWord pw dbg + pw / 8 ∨ stlWord pw dbg + pw / 8 + pw / 8 ≤ k := hk ⟨stlWord pw dbg + pw / 8, pw, 0, false⟩ (by simp [DocType.row])
      rw [st_outside _ (by rw [st_length _ (by omega)]; omega) k h2, st_outside _ (by omega) k h1]
  · intro bs l hbs hl
    have hl' : l.toNat < 255 := hl
    have hr : ((DocType.string dbg).row pw).Holds l.toNat bs ↔
        ld pw bs (stlWord pw dbg) = l.setWidth pw ∧ ld pw bs (stlWord pw dbg + pw / 8) = 0 := by
      rw [← h0]
      simp only [DocRow.Holds, DocType.row, DocWord.Holds, List.forall_mem_cons, List.not_mem_nil, if_true,
        Bool.false_eq_true, if_false, false_implies, implies_true, and_true]
      rfl
    rw [hr]
    show (if ld pw bs (stringMarkOff pw (.stl dbg)) = 0 then (ld pw bs (stringSizeOff pw (.stl dbg))).setWidth 64
      else BitVec.allOnes 64) = l ↔ _
    rw [ho1, ho2]
    split
    · rename_i hm
      rw [hm]
      have := sub_level hw (ld pw bs (stlWord pw dbg)) 0#pw l (by omega)
      rw [BitVec.sub_zero, BitVec.zero_add] at this
      rw [this]
      exact ⟨fun h => ⟨h, rfl⟩, fun h => h.1⟩
    · rename_i hm
      refine ⟨fun h => ?_, fun h => absurd h.2 hm⟩
      rw [← h] at hl'
      exact absurd hl' (by decide)
  · intro bs l hl
    have hl' : ¬ l.toNat < 255 := Nat.not_lt.mpr hl
    show verifyThen (decide (l.toNat < 255)) _ = _
    rw [decide_eq_false hl', verifyThen_false]

/-- the range of a row of one word has as many values as there are levels -/
theorem last_one {N off w : Nat} {first last : Int} (h : last - first + 1 = N) :
    ∀ x ∈ (DocRow.one N off w first).words, x.counts = true → last - x.first + 1 = ((DocRow.one N off w first).levels : Int) := by
  intro x hx _
  simp only [DocRow.one, List.mem_singleton] at hx
  subst hx
  exact h

/-- C67 (partial: two rows of the table are wrong, see the `violated` theorems): every other row says how many levels there
are, where they are stored and in which bytes they are recognised, and its range has as many values as there are levels. -/
theorem C67_table_partial {pw : Nat} (hpw : pw = 32 ∨ pw = 64) (d : DocType) (hc : d.Covered pw)
    (hsv : ∀ lf, d ≠ .stringView lf) (hv : d ≠ .vector) :
    (d.row pw).Describes (d.ty.traits pw) (d.ty.size pw) ∧
      (∀ x ∈ (d.row pw).words, x.counts = true → d.last pw - x.first + 1 = (d.row pw).levels) := by
  have hw8 : pw % 8 = 0 := by rcases hpw with rfl | rfl <;> rfl
  have hw : pw ≤ 64 := by rcases hpw with rfl | rfl <;> decide
  cases d with
  | bool =>
    refine ⟨describes_one (s := 2#8) (by decide) (by decide) (by decide) (Nat.le_refl _) rfl rfl (fun bs l => ?_) fun bs => rfl,
      last_one rfl⟩
    show verifyThen (decide (l.toNat < 254)) (.ok (st 8 bs 0 ((l + 2).setWidth 8))) = _
    rw [BitVec.setWidth_add _ _ (by decide), BitVec.add_comm]
    rfl
  | referenceWrapper =>
    refine ⟨describes_one (s := 0#pw) hw8 hw (by rcases hpw with rfl | rfl <;> decide) (by simp [DocType.ty, Ty.size, Ty.sizeTraits]) rfl rfl
      (fun bs l => ?_) fun bs => ?_, last_one rfl⟩
    · rw [BitVec.zero_add]; rfl
    · rw [BitVec.sub_zero]; rfl
  | pointer =>
    rcases hpw with rfl | rfl
    · refine ⟨describes_one (s := 0xFFFFFFC0#32) (by decide) (by decide) (by decide) (Nat.le_refl _) rfl rfl (fun bs l => ?_)
        fun bs => rfl, last_one rfl⟩
      rw [← add_level (by decide)]
      rfl
    · refine ⟨describes_one (s := 0xF8E1B1825D5D6C67#64) (by decide) (by decide) (by decide) (Nat.le_refl _) rfl rfl (fun bs l => ?_)
        fun bs => ?_, last_one rfl⟩
      · rw [BitVec.setWidth_eq]; rfl
      · rw [BitVec.setWidth_eq]; rfl
  | float64 s a => 
    cases s
    · refine ⟨describes_one (s := 0xFFFBF26430BB3557#64) (by decide) (by decide) (by decide) (Nat.le_refl _) rfl rfl (fun bs l => ?_)
        fun bs => ?_, last_one rfl⟩
      · rw [BitVec.setWidth_eq]; rfl
      · rw [BitVec.setWidth_eq]; rfl
    · refine ⟨describes_one (s := 0xFFF6C79F55B0898F#64) (by decide) (by decide) (by decide) (Nat.le_refl _) rfl rfl (fun bs l => ?_)
        fun bs => ?_, last_one rfl⟩
      · rw [BitVec.setWidth_eq]; rfl
      · rw [BitVec.setWidth_eq]; rfl
  | float32 s =>
    cases s
    · refine ⟨describes_one (s := 0xFFC3EFB5#32) (by decide) (by decide) (by decide) (Nat.le_refl _) rfl rfl (fun bs l => ?_)
        fun bs => rfl, last_one rfl⟩
      rw [← add_level (by decide)]; rfl
    · refine ⟨describes_one (s := 0xFFBF69AF#32) (by decide) (by decide) (by decide) (Nat.le_refl _) rfl rfl (fun bs l => ?_)
        fun bs => rfl, last_one rfl⟩
      rw [← add_level (by decide)]; rfl
  | polymorphic n a =>
    have hn : pw / 8 ≤ n := hc
    refine ⟨describes_one (s := topMinus pw 89151) hw8 hw (by rcases hpw with rfl | rfl <;> decide)
      (by rw [Nat.zero_add]; exact hn) (by rcases hpw with rfl | rfl <;> decide) rfl (fun bs l => ?_) fun bs => rfl, last_one rfl⟩
    rw [← add_level hw]; rfl
  | stringView lf => exact absurd rfl (hsv lf)
  | uniquePtr =>
    refine ⟨describes_one (s := topMinus pw 46508) hw8 hw (by rcases hpw with rfl | rfl <;> decide)
      (by simp [DocType.ty, Ty.size, Ty.sizeTraits]) (by rcases hpw with rfl | rfl <;> decide) rfl (fun bs l => ?_) fun bs => rfl, last_one rfl⟩
    rw [← add_level hw]; rfl
  | string dbg => exact ⟨describes_string hpw dbg, by simp [DocType.row, DocType.last]⟩
  | vector => exact absurd rfl hv
  | memberPtr n a =>
    have hn : n = 4 ∨ 8 ≤ n := hc
    rcases hn with rfl | hn
    · refine ⟨describes_one (s := 0xFFFFFC17#32) (by decide) (by decide) (by decide) (Nat.le_refl _) rfl rfl (fun bs l => ?_)
        fun bs => rfl, last_one rfl⟩
      rw [← add_level (by decide), BitVec.add_comm]; rfl
    · have h4 : n ≠ 4 := by omega
      have ht : (Ty.memberPtr n a).traits pw = memberPointer64Traits := by
        simp [Ty.traits, Ty.sizeTraits, h4, hn]
      have hrow : (DocType.memberPtr n a).row pw = .one 255 0 64 0xFFFFFFFFD3B2F9B2 := by simp [DocType.row, h4]
      have hlast : (DocType.memberPtr n a).last pw = 0xFFFFFFFFD3B2FAB0 := by simp [DocType.last, h4]
      rw [hrow, hlast]
      refine ⟨?_, last_one rfl⟩
      show DocRow.Describes _ ((Ty.memberPtr n a).traits pw) n
      rw [ht]
      refine describes_one (s := 0xFFFFFFFFD3B2F9B2#64) (by decide) (by decide) (by decide) (by simpa using hn) rfl rfl (fun bs l => ?_)
        fun bs => ?_
      · rw [BitVec.setWidth_eq, BitVec.add_comm]; rfl
      · rw [BitVec.setWidth_eq]; rfl

/-- `double`, level 3 of 256: the seven low bits of the documented start count up, and the eight bytes are all that is
written; level 256 is refused. -/
example : ((Ty.float64 true 8).traits 64).setLevel [1, 2, 3, 4, 5, 6, 7, 8] 3 = .ok [0x92, 0x89, 0xB0, 0x55, 0x9F, 0xC7, 0xF6, 0xFF] ∧
    ((Ty.float64 true 8).traits 64).getLevel [0x92, 0x89, 0xB0, 0x55, 0x9F, 0xC7, 0xF6, 0xFF] = 3 ∧
    ((Ty.float64 true 8).traits 64).setLevel [1, 2, 3, 4, 5, 6, 7, 8] 256 = .verify := by decide

/-- a polymorphic type of 16 bytes: the level is in the first word only -/
example : ∃ bs', ((Ty.polymorphic 16 8).traits 64).setLevel (List.replicate 16 7) 254 = .ok bs' ∧ ld 64 bs' 0 = BitVec.ofInt 64 (-88898) ∧
    bs'[8]? = some 7 := by
  obtain ⟨bs', h1, h2, _, h4⟩ := (C67_table_partial (.inr rfl) (.polymorphic 16 8) (by show 64 / 8 ≤ 16; decide) nofun nofun).1.set
    (List.replicate 16 7) 254 rfl (by decide)
  exact ⟨bs', h1, (h2 ⟨0, 64, -89152, true⟩ (by simp [DocType.row, DocRow.one])).trans (by decide),
    (h4 8 (by simp [DocType.row, DocRow.one])).trans (by decide)⟩

/-- C67, the row about `std::basic_string_view` put right: the range of `data()` starts at -32186, and the length becomes 0. -/
theorem C67_string_view {pw : Nat} (hpw : pw = 32 ∨ pw = 64) (lf : Bool) :
    (stringViewTraits pw lf).maxLevel = 255 ∧
    (∀ (bs : Bytes) (l : U64), bs.length = 2 * (pw / 8) → l.toNat < 255 → ∃ bs',
      (stringViewTraits pw lf).setLevel bs l = .ok bs' ∧ bs'.length = 2 * (pw / 8) ∧
      ld pw bs' (if lf then pw / 8 else 0) = BitVec.ofInt pw (-32186 + l.toNat) ∧
      ld pw bs' (if lf then 0 else pw / 8) = 0) ∧
    (∀ (bs : Bytes) (l : U64), l.toNat < 255 → ((stringViewTraits pw lf).getLevel bs = l ↔
      ld pw bs (if lf then pw / 8 else 0) = BitVec.ofInt pw (-32186 + l.toNat))) := by
  have hw8 : pw % 8 = 0 := by rcases hpw with rfl | rfl <;> rfl
  have hw : pw ≤ 64 := by rcases hpw with rfl | rfl <;> decide
  have hN : 255 ≤ 2 ^ pw := by rcases hpw with rfl | rfl <;> decide
  have hs : BitVec.ofInt pw (-32186) = topMinus pw 32185 := by rcases hpw with rfl | rfl <;> decide
  refine ⟨rfl, ?_, ?_⟩
  · intro bs l hbs hl
    refine ⟨st pw (st pw bs (if lf then pw / 8 else 0) (topMinus pw 32185 + l.setWidth pw)) (if lf then 0 else pw / 8) 0,
      ?_, ?_, ?_, ?_⟩
    · show verifyThen (decide (l.toNat < 255)) (.ok (st pw (st pw bs _ (((topMinus pw 32185).setWidth 64 + l).setWidth pw)) _ 0)) = _
      rw [verifyThen_decide hl, add_level hw]
    · cases lf <;> simp only [Bool.false_eq_true, if_false, if_true] <;>
        rw [st_length _ (by rw [st_length _ (by omega)]; omega), st_length _ (by omega), hbs]
    · rw [ofInt_level hs]
      cases lf <;> simp only [Bool.false_eq_true, if_false, if_true]
      · rw [ld_st_disj _ (by rw [st_length _ (by omega)]; omega) (.inl (by omega)), ld_st_same hw8 _ (by omega)]
      · rw [ld_st_disj _ (by rw [st_length _ (by omega)]; omega) (.inr (by omega)), ld_st_same hw8 _ (by omega)]
    · cases lf <;> simp only [Bool.false_eq_true, if_false, if_true] <;>
        rw [ld_st_same hw8 _ (by rw [st_length _ (by omega)]; omega)]
  · intro bs l hl
    rw [ofInt_level hs, ← sub_level hw _ _ _ (by omega)]
    rfl

/-- a `string_view` of libstdc++ at level 2 -/
example : (stringViewTraits 64 true).getLevel ([0, 0, 0, 0, 0, 0, 0, 0] ++ leBytes 8 (2 ^ 64 - 32184)) = 2 :=
  ((C67_string_view (.inr rfl) true).2.2 _ 2 (by decide)).2 (by decide)

/-- C67 violated: the documented range of `std::basic_string_view` starts one too high.  The first documented value is
level 1, and the value of level 0 is not in the range. -/
theorem C67_violated_string_view (lf : Bool) (bs : Bytes) {pw : Nat} (hpw : pw = 32 ∨ pw = 64)
    (h : ((DocType.stringView lf).row pw).Holds 0 bs) :
    (stringViewTraits pw lf).getLevel bs = 1 ∧ ¬ ((DocType.stringView lf).row pw).Describes (stringViewTraits pw lf) bs.length := by
  have h0 : ld pw bs (if lf then pw / 8 else 0) = BitVec.ofInt pw (-32185) :=
    (h ⟨if lf then pw / 8 else 0, pw, -32185, true⟩ (by simp [DocType.row, DocRow.one])).trans (by simp)
  have h1 : (stringViewTraits pw lf).getLevel bs = 1 := ((C67_string_view hpw lf).2.2 bs 1 (by decide)).2 h0
  refine ⟨h1, fun hd => ?_⟩
  have := (hd.get bs 0 rfl (show (0#64).toNat < 255 by decide)).2 h
  rw [h1] at this
  exact absurd this (by decide)

/-- such bytes exist -/
example : ((DocType.stringView false).row 64).Holds 0 (leBytes 8 (2 ^ 64 - 32185) ++ [0, 0, 0, 0, 0, 0, 0, 0]) := by
  intro x hx
  simp only [DocType.row, DocRow.one, List.mem_singleton] at hx
  subst hx
  show ld 64 _ 0 = _
  decide

/-- C67, the row about `std::vector` put right: the level is in the first word (`data()`), from -76327, and no other byte
changes. -/
theorem C67_vector {pw : Nat} (hpw : pw = 32 ∨ pw = 64) :
    (DocRow.one 255 0 pw (-76327)).Describes (vectorTraits pw) (Ty.vector.size pw) := by
  have hw8 : pw % 8 = 0 := by rcases hpw with rfl | rfl <;> rfl
  have hw : pw ≤ 64 := by rcases hpw with rfl | rfl <;> decide
  refine describes_one (s := topMinus pw 76326) hw8 hw (by rcases hpw with rfl | rfl <;> decide)
    (by rcases hpw with rfl | rfl <;> decide) (by rcases hpw with rfl | rfl <;> decide) rfl (fun bs l => ?_) fun bs => rfl
  rw [← add_level hw]; rfl

/-- C67 violated: what the table says about `std::vector` is not what the code does, for any level: the word documented
to be 1 never is. -/
theorem C67_violated_vector {pw : Nat} (hpw : pw = 32 ∨ pw = 64) (bs : Bytes) (l : U64) (hbs : bs.length = Ty.vector.size pw)
    (hl : l.toNat < 255) : ∃ bs', (vectorTraits pw).setLevel bs l = .ok bs' ∧ ¬ (DocType.vector.row pw).Holds l.toNat bs' := by
  obtain ⟨bs', h1, h2, _, _⟩ := (C67_vector hpw).set bs l hbs hl
  refine ⟨bs', h1, fun h => ?_⟩
  have h3 : ld pw bs' 0 = BitVec.ofInt pw (-76327 + (l.toNat : Int)) := h2 ⟨0, pw, -76327, true⟩ (by simp [DocRow.one])
  have h4 : ld pw bs' 0 = BitVec.ofInt pw (1 + 0) := h ⟨0, pw, 1, false⟩ (by simp [DocType.row])
  rw [h3] at h4
  have h5 := congrArg BitVec.toInt h4
  rw [BitVec.toInt_ofInt, BitVec.toInt_ofInt] at h5
  rcases hpw with rfl | rfl
  · rw [show ((1 : Int) + 0).bmod (2 ^ 32) = 1 from rfl, Int.bmod_eq_of_le (by omega) (by omega)] at h5; omega
  · rw [show ((1 : Int) + 0).bmod (2 ^ 64) = 1 from rfl, Int.bmod_eq_of_le (by omega) (by omega)] at h5; omega

/-- level 5 of a vector of 24 bytes -/
example : (vectorTraits 64).setLevel (List.replicate 24 0) 5 =
    .ok ([0xDE, 0xD5, 0xFE, 0xFF, 0xFF, 0xFF, 0xFF, 0xFF] ++ List.replicate 16 0) := by decide

/-- C67 violated: the table says that references have 255 levels stored as [0,254].  Counted with the option's own empty
state, `option<T&>` stores the pointers 0, …, 256: level `l` of the traits that an outer option uses is the pointer
`l + 1`, and there are 256 of them. -/
theorem C67_violated_references {pw : Nat} (hpw : pw = 32 ∨ pw = 64) :
    (referenceOptionTraits pw).maxLevel = 256 ∧
    (∀ (bs : Bytes) (l : U64), bs.length = pw / 8 → l.toNat < 256 → ∃ bs', (referenceOptionTraits pw).setLevel bs l = .ok bs' ∧
      (ld pw bs' 0).toNat = l.toNat + 1) ∧
    (∀ (bs : Bytes), (referenceOptionTraits pw).getLevel bs = 255 ↔ (ld pw bs 0).toNat = 256) := by
  have hw8 : pw % 8 = 0 := by rcases hpw with rfl | rfl <;> rfl
  refine ⟨rfl, ?_, ?_⟩
  · intro bs l hbs hl
    refine ⟨st pw bs 0 ((l + 1).setWidth pw), rfl, ?_⟩
    rw [ld_st_same hw8 _ (by omega), BitVec.toNat_setWidth, BitVec.toNat_add]
    have h1 : BitVec.toNat (1 : U64) = 1 := rfl
    rcases hpw with rfl | rfl <;> omega
  · intro bs
    show (ld pw bs 0).setWidth 64 - 1 = 255#64 ↔ _
    generalize ld pw bs 0 = x
    rw [← BitVec.toNat_inj, BitVec.toNat_sub, BitVec.toNat_setWidth]
    have := x.isLt
    have h1 : BitVec.toNat (1 : U64) = 1 := rfl
    have h2 : (255#64).toNat = 255 := rfl
    rcases hpw with rfl | rfl <;> omega

/-- the pointer 256, which the table does not mention, is an empty option inside an option -/
example : (referenceOptionTraits 64).getLevel [0, 1, 0, 0, 0, 0, 0, 0] = 255 := by decide

/-- docs/builtin_traits.md, "Enumeration": where the search for the last enumerator starts -/
def docSearchStart (w : Nat) : Nat := if w = 8 then 255 else 1023

/-- C67, enumerations without `SENTINEL` names: when some enumerator leaves room, the number of levels is one more than the
documented "difference between search start and rounded the found value", where the found value `hi` is the greatest
enumerator up to the documented start and it is rounded to the next power of two. -/
theorem C67_violated_enumeration {pw w : Nat} (hw : w = 8 ∨ w = 16 ∨ w = 32 ∨ w = 64) (decl : List Nat)
    (h : ((Ty.enumReflect w decl).traits pw).maxLevel ≠ 0) :
    ∃ hi k, hi ∈ decl ∧ (∀ v ∈ decl, v ≤ docSearchStart w → v ≤ hi) ∧ hi < docSearchStart w ∧
      hi < 2 ^ k ∧ (∀ j, hi < 2 ^ j → k ≤ j) ∧
      ((Ty.enumReflect w decl).traits pw).maxLevel = (docSearchStart w - 2 ^ k) + 1 := by
  have hp : enumProbe w = docSearchStart w + 1 := by rcases hw with rfl | rfl | rfl | rfl <;> rfl
  have e : ((Ty.enumReflect w decl).traits pw).maxLevel =
      enumMaxLevel w (Enum.maxEnumValue (fun v => decl.contains v) (enumProbe w)) := rfl
  rw [e] at h ⊢
  generalize hm : Enum.maxEnumValue (fun v => decl.contains v) (enumProbe w) = m at *
  have hm0 : m ≠ 0 := fun h0 => h (by rw [enumMaxLevel, if_pos h0])
  obtain ⟨k, hi, h1, h2, h3, h4, h5, h6, h7⟩ := Enum.maxEnumValue_spec (d := fun v => decl.contains v)
    (enumProbe_pow (w := w)) (by rw [hm]; exact hm0)
  rw [hm] at h1
  have hx := enumMaxLevel_toNat (w := w) hm0 (by omega)
  rw [hx] at h ⊢
  refine ⟨hi, k, by simpa using h3, fun v hv hle => h6 v (by omega) (by simpa using hv), by omega, h4, h7, by omega⟩

/-- `enum class E : unsigned char { a, b, c }`: 252 levels, not 251 -/
example : ((Ty.enumReflect 8 [0, 1, 2]).traits 64).maxLevel = 252 := by decide +kernel

/-- greatest value of the underlying type -/
def underlyingMax (w : Nat) (signed : Bool) : Int := if signed then 2 ^ (w - 1) - 1 else 2 ^ w - 1

/-- C67, enumerations with `SENTINEL` names: the documented numbers of levels. -/
theorem C67_sentinels {pw w : Nat} (sg : Bool) :
    (∀ s, ((Ty.enumSentinel w sg s).traits pw).maxLevel = 1) ∧
    (∀ s, (Ty.enumStart w sg s).WF pw →
      (((Ty.enumStart w sg s).traits pw).maxLevel : Int) = underlyingMax w sg - enumVal w sg s + 1) ∧
    (∀ s e, (Ty.enumStartEnd w sg s e).WF pw →
      (((Ty.enumStartEnd w sg s e).traits pw).maxLevel : Int) = enumVal w sg e - enumVal w sg s + 1) := by
  refine ⟨fun _ => rfl, ?_, ?_⟩
  · intro s hwf
    simp only [Ty.WF] at hwf
    obtain ⟨hw, hz, hsg⟩ := hwf
    show (enumStartMax w sg s : Int) = _
    cases sg
    · have h2 := enumStartMax_unsigned hw s (fun h => hz ⟨rfl, h⟩)
      have := s.isLt
      have hpw : (2 : Int) ^ w = ((2 ^ w : Nat) : Int) := by norm_cast
      rw [h2]
      simp only [underlyingMax, enumVal, Bool.false_eq_true, if_false]
      omega
    · rw [enumStartMax_signed hw s (hsg rfl)]
      simp only [underlyingMax, enumVal, if_true]
      omega
  · intro s e hwf
    simp only [Ty.WF] at hwf
    obtain ⟨hw, hsg⟩ := hwf
    show (enumStartEndMax w sg s e : Int) = _
    cases sg
    · simp only [Bool.false_eq_true, if_false] at hsg
      rw [enumStartEndMax_unsigned hw s e hsg.1 hsg.2]
      simp only [enumVal, Bool.false_eq_true, if_false]
      omega
    · simp only [if_true] at hsg
      rw [enumStartEndMax_signed hw s e hsg.1 hsg.2]
      simp only [enumVal, if_true]

/-- `enum E : signed char { SENTINEL_START = -20 }`: 148 levels, up to 127 -/
example : (((Ty.enumStart 8 true (-20)).traits 64).maxLevel : Int) = 127 - (-20) + 1 :=
  (C67_sentinels (pw := 64) (w := 8) true).2.1 (-20) (by simp [Ty.WF])

/-- C67 violated: the table gives the range of `SENTINEL_START` as [`SENTINEL_START`, -1].  For a signed underlying type the
non-negative values from the start up are levels too, although they are outside of that range. -/
theorem C67_violated_start {w : Nat} {s : BitVec w} {pw : Nat} (hwf : (Ty.enumStart w true s).WF pw) (bs : Bytes)
    (ho : diffOverflows true w (ld w bs 0) s = false) (hs : s.toInt ≤ (ld w bs 0).toInt) (h0 : 0 ≤ (ld w bs 0).toInt) :
    ((enumStartTraits w true s).getLevel bs).toNat < (enumStartTraits w true s).maxLevel ∧
      ¬ (s.toInt ≤ (ld w bs 0).toInt ∧ (ld w bs 0).toInt ≤ -1) :=
  ⟨(C11_start hwf bs ho).1.2 (by simpa only [enumVal, if_true] using hs), by omega⟩

/-- `enum E : signed char { SENTINEL_START = 100 }`: the value 127 is level 27 -/
example : ((enumStartTraits 8 true 100).getLevel [127]).toNat = 27 := by decide

end Opt
