import Verif.Lemmas.Nested
import Verif.Spec.AsOption
import Verif.Model.AsOption

namespace Opt

/-- what is read back as level `l` is what `set_level(l)` writes -/
def TightT (t : Traits) (n cap : Nat) : Prop :=
  ∀ bs l, bs.length = n → l.toNat < cap → t.getLevel bs = l → t.setLevel bs l = .ok bs

theorem st_ld_self {w : Nat} {bs : Bytes} {off : Nat} (hw : w % 8 = 0) (h : off + w / 8 ≤ bs.length) :
    st w bs off (ld w bs off) = bs := by
  have hl : (rd bs off (w / 8)).length = w / 8 := rd_length h
  have hlt : leVal (rd bs off (w / 8)) < 2 ^ w := by
    have := leVal_lt (rd bs off (w / 8)); rw [hl, pow256 hw] at this; exact this
  have : (ld w bs off).toNat = leVal (rd bs off (w / 8)) := by
    simp only [ld, BitVec.toNat_ofNat]; exact Nat.mod_eq_of_lt hlt
  simp only [st, this]
  have e := leBytes_leVal (rd bs off (w / 8))
  rw [hl] at e
  rw [e, wr_rd_self h]

theorem tight_word {t : Traits} {n w off cap : Nat} {V : Bytes → Prop} (h : LawOK t n V cap) (hw : w % 8 = 0)
    (hoff : off + w / 8 ≤ n) (f : BitVec w → U64) (g : U64 → BitVec w)
    (hget : ∀ bs, t.getLevel bs = f (ld w bs off))
    (hset : ∀ bs l, l.toNat < cap → t.setLevel bs l = .ok (st w bs off (g l)))
    (inj : ∀ a b, f a = f b → a = b) : TightT t n cap := by
  intro bs l hl hlt hg
  obtain ⟨bs', h1, h2, h3⟩ := h.roundtrip bs l hl hlt
  rw [hset bs l hlt] at h1 ⊢
  cases h1
  rw [hget, ld_st_same hw _ (by omega)] at h3
  rw [hget] at hg
  have := inj _ _ (h3.trans hg.symm)
  rw [this, st_ld_self hw (by omega)]

theorem setWidth_inj {w v : Nat} (h : w ≤ v) {a b : BitVec w} (e : a.setWidth v = b.setWidth v) : a = b := by
  have := congrArg (fun x : BitVec v => x.setWidth w) e
  simp only [BitVec.setWidth_setWidth_of_le _ h, BitVec.setWidth_eq] at this
  exact this

theorem signExtend_inj {w v : Nat} (h : w ≤ v) {a b : BitVec w} (e : a.signExtend v = b.signExtend v) : a = b := by
  apply BitVec.eq_of_toInt_eq
  have := congrArg BitVec.toInt e
  rwa [BitVec.toInt_signExtend_of_le h, BitVec.toInt_signExtend_of_le h] at this

theorem sub_right_inj {w : Nat} {a b c : BitVec w} (e : a - c = b - c) : a = b := by
  have := congrArg (fun x => x + c) e
  simpa only [BitVec.sub_add_cancel] using this

theorem enumDiff_inj {sg : Bool} {w : Nat} (hw : w = 8 ∨ w = 16 ∨ w = 32 ∨ w = 64) {a b s : BitVec w}
    (e : enumDiff sg w a s = enumDiff sg w b s) : a = b := by
  have hle : promW w ≤ 64 := by rcases hw with rfl | rfl | rfl | rfl <;> decide
  have hge : w ≤ promW w := by rcases hw with rfl | rfl | rfl | rfl <;> decide
  have h1 : prom sg w a - prom sg w s = prom sg w b - prom sg w s := by
    simp only [enumDiff, promTo64] at e
    split at e
    · exact signExtend_inj hle e
    · exact setWidth_inj hle e
  have h2 := sub_right_inj h1
  simp only [prom] at h2
  cases sg
  · exact setWidth_inj hge h2
  · exact signExtend_inj hge h2

theorem tight_atField {t : Traits} {n N off cap : Nat} (h : TightT t n cap) (hN : off + n ≤ N) :
    TightT (atField off n t) N cap := by
  intro bs l hl hlt hg
  have := h (rd bs off n) l (by rw [rd_length]; omega) hlt hg
  simp only [atField, this, Res.map]
  rw [wr_rd_self (by omega)]

theorem tight_ptr {pw k n off : Nat} {t : Traits} {V : Bytes → Prop} (hpw : pw = 32 ∨ pw = 64)
    (h : LawOK t n V 255) (hn : off + pw / 8 ≤ n)
    (hget : ∀ bs, t.getLevel bs = ptrGet pw (topMinus pw k) off bs)
    (hset : ∀ bs l, t.setLevel bs l = verifyThen (l.toNat < 255) (.ok (st pw bs off (ptrSet pw (topMinus pw k) l)))) :
    TightT t n 255 := by
  refine tight_word (w := pw) (off := off) h (by omega) hn (fun x => (x - topMinus pw k).setWidth 64)
    (fun l => ptrSet pw (topMinus pw k) l) hget (fun bs l hl => ?_) (fun a b e => ?_)
  · rw [hset, verifyThen_decide hl]
  · exact sub_right_inj (setWidth_inj (by omega) e)

theorem sentinelGet_ge {eq : Bytes → Bytes → Bool} : ∀ (vals : List Bytes) (i : U64) (x : Bytes), vals ≠ [] →
    i.toNat + vals.length < 2 ^ 64 → i.toNat ≤ (sentinelGet eq vals i x).toNat
  | [], _, _, h, _ => absurd rfl h
  | v :: vs, i, x, _, hb => by
    unfold sentinelGet
    split
    · exact Nat.le_refl _
    · cases vs with
      | nil => have := i.isLt; simp only [BitVec.toNat_allOnes]; omega
      | cons u us =>
        simp only [List.length_cons] at hb
        have e : (i + 1).toNat = i.toNat + 1 := add_one_toNat (by omega)
        have := sentinelGet_ge (eq := eq) (u :: us) (i + 1) x (by simp) (by simp only [List.length_cons]; omega)
        simp only at this ⊢
        omega

theorem sentinelSet_get {eq : Bytes → Bytes → Bool} (heq : ∀ x y, eq x y = true → x = y) :
    ∀ (vals : List Bytes) (i : U64) (x : Bytes), vals ≠ [] →
    i.toNat + vals.length < 2 ^ 64 → sentinelGet eq vals i x ≠ BitVec.allOnes 64 →
    sentinelSet vals i (sentinelGet eq vals i x) = .ok x
  | [], _, _, h, _, _ => absurd rfl h
  | v :: vs, i, x, _, hb, hne => by
    unfold sentinelGet at hne ⊢
    by_cases h : eq x v = true
    · rw [if_pos h]; unfold sentinelSet; rw [if_pos rfl, heq _ _ h]
    · rw [if_neg h] at hne ⊢
      cases vs with
      | nil => exact absurd rfl hne
      | cons u us =>
        simp only [List.length_cons] at hb
        have e : (i + 1).toNat = i.toNat + 1 := add_one_toNat (by omega)
        simp only at hne ⊢
        have hge := sentinelGet_ge (eq := eq) (u :: us) (i + 1) x (by simp) (by simp only [List.length_cons]; omega)
        rw [sentinelSet, if_neg (by intro hc; rw [hc] at hge; omega)]
        exact sentinelSet_get heq (u :: us) (i + 1) x (by simp) (by simp only [List.length_cons]; omega) hne

theorem tight_option {pw : Nat} {a : Ty} (hwf : (Ty.option a).WF pw)
    (h : TightT (a.traits pw) (a.size pw) (a.cap pw)) (hlaw : LawOK (a.traits pw) (a.size pw) (a.Valid pw) (a.cap pw)) :
    TightT ((Ty.option a).traits pw) ((Ty.option a).size pw) ((Ty.option a).cap pw) := by
  have hwf' := hwf
  simp only [Ty.WF] at hwf'
  rw [option_traits_eq]
  simp only [Ty.cap, optionTraits]
  by_cases hm : (a.traits pw).maxLevel ≥ 1
  · rw [if_pos hm, if_pos hm, option_size_avail hm]
    intro bs l hl hlt hg
    simp only [availableOptionTraits] at hg ⊢
    have hc := hlaw.cap_le
    have hx := hlaw.max_lt
    have e : (l + 1).toNat = l.toNat + 1 := add_one_toNat (by omega)
    refine h bs (l + 1) hl (by omega) ?_
    rw [← hg, BitVec.sub_add_cancel]
  · rw [if_neg hm, if_neg hm, option_size_flag hm]
    have hr := roundTo_ge (a.size pw + 1) hwf'.2.1
    have hb : TightT boolTraits 1 254 := tight_word (w := 8) (off := 0) (lawOK_bool 64) (by omega) (by omega)
      (fun x => (x - 2).setWidth 64) (fun l => (l + 2).setWidth 8) (fun _ => rfl)
      (fun bs l hl => by simp only [boolTraits]; rw [verifyThen_decide hl])
      (fun a b e => sub_right_inj (setWidth_inj (by omega) e))
    exact tight_atField hb hr

theorem tight_none {n : Nat} {t : Traits} : TightT t n 0 := fun _ _ _ h _ => absurd h (by omega)

mutual
/-- Reading level `l` means holding the bytes `set_level(l)` writes. -/
theorem Ty.tight {pw : Nat} (hpw : pw = 32 ∨ pw = 64) : ∀ (T : Ty), T.WF pw → T.Tight →
    TightT (T.traits pw) (T.size pw) (T.cap pw)
  | .plain n al, _, _ => tight_none
  | .bool, h, _ => tight_word (w := 8) (off := 0) (lawOK_bool pw) (by omega) (by simp [Ty.size, Ty.sizeTraits])
      (fun x => (x - 2).setWidth 64) (fun l => (l + 2).setWidth 8) (fun _ => rfl)
      (fun bs l hl => by simp only [Ty.traits, Ty.sizeTraits, boolTraits]; exact verifyThen_decide hl _)
      (fun a b e => sub_right_inj (setWidth_inj (by omega) e))
  | .refWrapper, h, _ => tight_word (w := pw) (off := 0) (Ty.lawOK hpw .refWrapper h) (by omega)
      (by simp [Ty.size, Ty.sizeTraits])
      (fun x => x.setWidth 64) (fun l => l.setWidth pw) (fun _ => rfl)
      (fun bs l hl => by
        simp only [Ty.traits, Ty.sizeTraits, refWrapperTraits]; exact verifyThen_decide hl _)
      (fun a b e => setWidth_inj (by omega) e)
  | .pointer, h, _ => by
    rcases hpw with rfl | rfl
    · exact tight_word (w := 32) (off := 0) (Ty.lawOK (.inl rfl) .pointer h) (by omega) (by decide)
        (fun x => (x - (0xFFFFFFFF#32 - 63)).setWidth 64) (fun l => ((0xFFFFFFFF#32 - 63).setWidth 64 + l).setWidth 32)
        (fun _ => rfl) (fun bs l hl => verifyThen_decide (p := l.toNat < 32) hl _)
        (fun a b e => sub_right_inj (setWidth_inj (by omega) e))
    · exact tight_word (w := 64) (off := 0) (Ty.lawOK (.inr rfl) .pointer h) (by omega) (by decide)
        (fun x => x - 0xF8E1B1825D5D6C67#64) (fun l => 0xF8E1B1825D5D6C67#64 + l)
        (fun _ => rfl) (fun bs l hl => verifyThen_decide (p := l.toNat < 512) hl _)
        (fun a b e => sub_right_inj e)
  | .float64 s al, h, _ => by
    cases s
    · exact tight_word (w := 64) (off := 0) (Ty.lawOK hpw _ h) (by omega) (by simp [Ty.size, Ty.sizeTraits])
        (fun x => x - 0b1111111111111011111100100110010000110000101110110011010101010111#64)
        (fun l => 0b1111111111111011111100100110010000110000101110110011010101010111#64 + l)
        (fun _ => rfl) (fun bs l hl => verifyThen_decide (p := l.toNat < 256) hl _)
        (fun a b e => sub_right_inj e)
    · exact tight_word (w := 64) (off := 0) (Ty.lawOK hpw _ h) (by omega) (by simp [Ty.size, Ty.sizeTraits])
        (fun x => x - 0b1111111111110110110001111001111101010101101100001000100110001111#64)
        (fun l => 0b1111111111110110110001111001111101010101101100001000100110001111#64 + l)
        (fun _ => rfl) (fun bs l hl => verifyThen_decide (p := l.toNat < 256) hl _)
        (fun a b e => sub_right_inj e)
  | .float32 s, h, _ => by
    cases s
    · exact tight_word (w := 32) (off := 0) (Ty.lawOK hpw _ h) (by omega) (by simp [Ty.size, Ty.sizeTraits])
        (fun x => (x - 0b11111111110000111110111110110101#32).setWidth 64)
        (fun l => (0b11111111110000111110111110110101#64 + l).setWidth 32)
        (fun _ => rfl) (fun bs l hl => verifyThen_decide (p := l.toNat < 256) hl _)
        (fun a b e => sub_right_inj (setWidth_inj (by omega) e))
    · exact tight_word (w := 32) (off := 0) (Ty.lawOK hpw _ h) (by omega) (by simp [Ty.size, Ty.sizeTraits])
        (fun x => (x - 0b11111111101111110110100110101111#32).setWidth 64)
        (fun l => (0b11111111101111110110100110101111#64 + l).setWidth 32)
        (fun _ => rfl) (fun bs l hl => verifyThen_decide (p := l.toNat < 256) hl _)
        (fun a b e => sub_right_inj (setWidth_inj (by omega) e))
  | .polymorphic n al, h, _ =>
    tight_ptr (k := 89151) (off := 0) hpw (Ty.lawOK hpw (.polymorphic n al) h)
      (by simp only [Ty.WF] at h; simpa [Ty.size, Ty.sizeTraits] using h) (fun _ => rfl) (fun _ _ => rfl)
  | .uniquePtr, h, _ =>
    tight_ptr (k := 46508) (off := 0) hpw (Ty.lawOK hpw .uniquePtr h)
      (by simp [Ty.size, Ty.sizeTraits]) (fun _ => rfl) (fun _ _ => rfl)
  | .vector, h, _ =>
    tight_ptr (k := 76326) (off := 0) hpw (Ty.lawOK hpw .vector h)
      (by simp [Ty.size, Ty.sizeTraits]; omega) (fun _ => rfl) (fun _ _ => rfl)
  | .stringView _, _, h => by simp only [Ty.Tight] at h
  | .string lib, h, _ => by
    intro bs l hl hlt hg
    have ho := string_offsets hpw lib
    simp only [Ty.size, Ty.sizeTraits] at hl
    have hlt' : l.toNat < 255 := hlt
    simp only [Ty.traits, Ty.sizeTraits, stringTraits] at hg ⊢
    by_cases hmk : ld pw bs (stringMarkOff pw lib) = stringMark pw lib
    · rw [if_pos hmk] at hg
      have e : l.setWidth pw = ld pw bs (stringSizeOff pw lib) := by
        rw [← hg, BitVec.setWidth_setWidth_of_le _ (by omega), BitVec.setWidth_eq]
      rw [verifyThen_decide hlt', e, ← hmk]
      have e1 : st pw bs (stringSizeOff pw lib) (ld pw bs (stringSizeOff pw lib)) = bs :=
        st_ld_self (by omega) (by omega)
      have e2 : st pw bs (stringMarkOff pw lib) (ld pw bs (stringMarkOff pw lib)) = bs :=
        st_ld_self (by omega) (by omega)
      cases lib <;> simp only [e1, e2]
    · rw [if_neg hmk] at hg
      rw [← hg] at hlt'
      simp at hlt'
  | .memberPtr n al, h, _ => by
    have hl := Ty.lawOK hpw (.memberPtr n al) h
    by_cases h4 : n = 4
    · subst h4
      exact tight_word (w := 32) (off := 0) hl (by omega) (by simp [Ty.size, Ty.sizeTraits])
        (fun x => (x - 0xFFFFFC17#32).setWidth 64) (fun l => (l + 0xFFFFFC17#64).setWidth 32)
        (fun _ => rfl) (fun bs l hl => verifyThen_decide (p := l.toNat < 255) hl _)
        (fun a b e => sub_right_inj (setWidth_inj (by omega) e))
    · by_cases h8 : n ≥ 8
      · have e : (Ty.memberPtr n al).traits pw = memberPointer64Traits := by
          simp only [Ty.traits, Ty.sizeTraits]; rw [if_neg h4, if_pos h8]
        have ec : (Ty.memberPtr n al).cap pw = 255 := by
          simp only [Ty.cap]; rw [e]; rfl
        rw [e, ec] at hl ⊢
        exact tight_word (w := 64) (off := 0) hl (by omega) (by simp [Ty.size, Ty.sizeTraits]; omega)
          (fun x => x - 0xFFFFFFFFD3B2F9B2#64) (fun l => l + 0xFFFFFFFFD3B2F9B2#64)
          (fun _ => rfl) (fun bs l hl => verifyThen_decide (p := l.toNat < 255) hl _)
          (fun a b e => sub_right_inj e)
      · have e : (Ty.memberPtr n al).traits pw = noTraits := by
          simp only [Ty.traits, Ty.sizeTraits]; rw [if_neg h4, if_neg h8]
        have ec : (Ty.memberPtr n al).cap pw = 0 := by
          simp only [Ty.cap]; rw [e]; rfl
        rw [ec]; exact tight_none
  | .padding n al off w, h, _ => by
    have hl := Ty.lawOK hpw (.padding n al off w) h
    simp only [Ty.WF] at h
    have hc := hl.cap_le
    refine tight_word (w := w) (off := off) hl (by omega) h.2
      (fun x => x.setWidth 64 - 1) (fun l => (l + 1).setWidth w) (fun _ => rfl)
      (fun bs l hl => verifyThen_decide (p := l.toNat < paddingMax w) (Nat.lt_of_lt_of_le hl hc) _)
      (fun a b e => setWidth_inj (by omega) (sub_right_inj e))
  | .enumReflect w decl, h, _ => by
    have hl := Ty.lawOK hpw (.enumReflect w decl) h
    simp only [Ty.WF] at h
    exact tight_word (w := w) (off := 0) hl (by omega) (by simp [Ty.size, Ty.sizeTraits])
      (fun x => x.setWidth 64 - Enum.maxEnumValue (fun v => decl.contains v) (enumProbe w))
      (fun l => (l + Enum.maxEnumValue (fun v => decl.contains v) (enumProbe w)).setWidth w) (fun _ => rfl)
      (fun bs l hl => verifyThen_decide hl _)
      (fun a b e => setWidth_inj (by omega) (sub_right_inj e))
  | .enumBool, _, h => by simp only [Ty.Tight] at h
  | .enumSentinel w sg s, h, _ => by
    have hl := Ty.lawOK hpw (.enumSentinel w sg s) h
    simp only [Ty.WF] at h
    refine tight_word (w := w) (off := 0) hl (by omega) (by simp [Ty.size, Ty.sizeTraits])
      (fun x => enumDiff sg w x s) (fun _ => s) (fun _ => rfl) (fun bs l hl => ?_) (fun a b e => enumDiff_inj h e)
    have hl' : l.toNat < 1 := hl
    have : l = 0 := by apply BitVec.eq_of_toNat_eq; simp; omega
    exact verifyThen_decide this _
  | .enumStart w sg s, h, _ => by
    have hl := Ty.lawOK hpw (.enumStart w sg s) h
    simp only [Ty.WF] at h
    exact tight_word (w := w) (off := 0) hl (by omega) (by simp [Ty.size, Ty.sizeTraits])
      (fun x => enumDiff sg w x s) (fun l => enumStartSet w sg s l) (fun _ => rfl)
      (fun bs l hl => verifyThen_decide (p := l.toNat < enumStartMax w sg s) hl _) (fun a b e => enumDiff_inj h.1 e)
  | .enumStartEnd w sg s e, h, _ => by
    have hl := Ty.lawOK hpw (.enumStartEnd w sg s e) h
    simp only [Ty.WF] at h
    exact tight_word (w := w) (off := 0) hl (by omega) (by simp [Ty.size, Ty.sizeTraits])
      (fun x => enumDiff sg w x s) (fun l => enumStartSet w sg s l) (fun _ => rfl)
      (fun bs l hl => verifyThen_decide (p := l.toNat < enumStartEndMax w sg s e) hl _)
      (fun a b e => enumDiff_inj h.1 e)
  | .sentinel n al eq vals, h, ht => by
    have hl := Ty.lawOK hpw (.sentinel n al eq vals) h
    simp only [Ty.Tight] at ht
    intro bs l hbs hlt hg
    have hlt' : l.toNat < vals.length := hlt
    have hmax : vals.length < 2 ^ 64 := hl.max_lt
    have hg' : sentinelGet eq vals 0 bs = l := hg
    show sentinelSet vals 0 l = .ok bs
    rw [← hg']
    refine sentinelSet_get ht vals 0 bs (by intro e; rw [e] at hlt'; simp at hlt') (by simp; omega) (fun e => ?_)
    rw [← hg', e] at hlt'
    simp only [BitVec.toNat_allOnes] at hlt'
    omega
  | .sentinelOpt n al eq s, h, ht => by
    simp only [Ty.Tight] at ht
    intro bs l hbs hlt hg
    have hlt' : l.toNat < 1 := hlt
    have hl0 : l = 0 := by apply BitVec.eq_of_toNat_eq; simp; omega
    subst hl0
    have hg' : (if eq bs s then (0 : U64) else 1) = 0 := hg
    have he : eq bs s = true := by
      by_cases h : eq bs s = true
      · exact h
      · rw [if_neg h] at hg'; exact absurd hg' (by decide)
    have : bs = s := ht _ _ he
    rw [this]; rfl
  | .custom _ _ _ _, _, h => by simp only [Ty.Tight] at h
  | .pair n al o1 a o2 b, h, ht => by
    simp only [Ty.WF] at h
    simp only [Ty.Tight] at ht
    obtain ⟨ha, hb, h1, h2⟩ := h
    have iha := Ty.tight hpw a ha ht.1
    have ihb := Ty.tight hpw b hb ht.2
    have e : (Ty.pair n al o1 a o2 b).traits pw =
      pairTraits (atField o1 (a.size pw) (a.traits pw)) (atField o2 (b.size pw) (b.traits pw)) := by
      simp only [Ty.traits, Ty.sizeTraits, Ty.size]
    have es : (Ty.pair n al o1 a o2 b).size pw = n := by simp only [Ty.size, Ty.sizeTraits]
    rw [e, es, pairTraits]
    have hmax : ∀ o k t, (atField o k t).maxLevel = t.maxLevel := fun _ _ _ => rfl
    simp only [hmax]
    by_cases hgt : (a.traits pw).maxLevel > (b.traits pw).maxLevel
    · rw [if_pos hgt]
      have : (Ty.pair n al o1 a o2 b).cap pw = a.cap pw := by simp only [Ty.cap]; rw [if_pos hgt]
      rw [this]
      exact tight_atField iha h1
    · rw [if_neg hgt]
      have : (Ty.pair n al o1 a o2 b).cap pw = b.cap pw := by simp only [Ty.cap]; rw [if_neg hgt]
      rw [this]
      exact tight_atField ihb h2
  | .tuple n al fs, h, ht => by
    simp only [Ty.WF] at h
    simp only [Ty.Tight] at ht
    have e : (Ty.tuple n al fs).traits pw = findMaxLevel (fs.traits pw) := by
      simp only [Ty.traits, Ty.sizeTraits]
    have es : (Ty.tuple n al fs).size pw = n := by simp only [Ty.size, Ty.sizeTraits]
    have ih := Fields.tight hpw n fs h ht
    rw [e, es]
    cases hts : fs.traits pw with
    | nil =>
      have hc : (Ty.tuple n al fs).cap pw = 0 := by
        have hl := Fields.caps_length pw fs
        rw [hts] at hl
        simp only [Ty.cap, List.length_eq_zero_iff.1 hl]
        simp
      rw [hc]
      exact tight_none
    | cons t ts =>
      obtain ⟨i, hi, hidx, hget⟩ := findMaxLevel_cons (t := t) (ts := ts)
      have hl := Fields.caps_length pw fs
      rw [hts] at hl
      have hc : (Ty.tuple n al fs).cap pw = (fs.caps pw)[i]'(by omega) := by
        simp only [Ty.cap, hts, ← hidx]
        rw [List.getElem?_eq_getElem (by omega)]; rfl
      rw [hc]
      refine ih i _ _ (by rw [hts]; exact hget) (List.getElem?_eq_getElem (by omega))
  | .array a n, h, ht => by
    simp only [Ty.WF] at h
    simp only [Ty.Tight] at ht
    have ih := Ty.tight hpw a h ht
    have es : (Ty.array a n).size pw = n * a.size pw := by simp only [Ty.size, Ty.sizeTraits]
    have e : (Ty.array a n).traits pw = if n = 0 then noTraits else atField 0 (a.size pw) (a.traits pw) := by
      simp only [Ty.traits, Ty.sizeTraits, Ty.size]
    rw [es, e]
    by_cases h0 : n = 0
    · have hc : (Ty.array a n).cap pw = 0 := by simp only [Ty.cap]; rw [if_pos h0]
      rw [hc]
      exact tight_none
    · have hc : (Ty.array a n).cap pw = a.cap pw := by simp only [Ty.cap]; rw [if_neg h0]
      rw [if_neg h0, hc]
      refine tight_atField ih ?_
      have : 1 * a.size pw ≤ n * a.size pw := Nat.mul_le_mul_right _ (by omega)
      omega
  | .complex a, h, ht => by
    have hwf := h
    simp only [Ty.WF] at h
    simp only [Ty.Tight] at ht
    have hlaw := Ty.lawOK hpw a h
    have htr : a.Tight := by rcases ht with ⟨s, al, rfl⟩ | ⟨s, rfl⟩ <;> simp only [Ty.Tight]
    have ih := Ty.tight hpw a h htr
    have hcst : ∀ b c l, b.length = a.size pw → c.length = a.size pw →
        (a.traits pw).setLevel b l = (a.traits pw).setLevel c l := by
      intro b c l hb hc
      rcases ht with ⟨s, al, rfl⟩ | ⟨s, rfl⟩
      all_goals
        simp only [Ty.size, Ty.sizeTraits] at hb hc
        cases s
        all_goals
          simp only [Ty.traits, Ty.sizeTraits, Bool.false_eq_true, if_false, if_true, float64SNaNTraits,
            float64QNaNTraits, float32SNaNTraits, float32QNaNTraits, st, wr, leBytes_length]
          rw [List.drop_eq_nil_of_le (by omega), List.drop_eq_nil_of_le (by omega)]
          simp
    have es : (Ty.complex a).size pw = 2 * a.size pw := by simp only [Ty.size, Ty.sizeTraits]
    have e : (Ty.complex a).traits pw = complexTraits (a.size pw) (a.traits pw) := by
      simp only [Ty.traits, Ty.sizeTraits, Ty.size]
    have hc : (Ty.complex a).cap pw = a.cap pw := by simp only [Ty.cap]
    rw [es, e, hc]
    intro bs l hl hlt hg
    have hr : (rd bs 0 (a.size pw)).length = a.size pw := rd_length (by omega)
    have h1 := ih (rd bs 0 (a.size pw)) l hr hlt hg
    simp only [complexTraits]
    rw [verifyThen_decide (Nat.lt_of_lt_of_le hlt hlaw.cap_le),
      hcst _ (rd bs 0 (a.size pw)) l (by simp) hr, h1]
    simp only [Res.map]
    rw [wr_rd_self (by omega)]
  | .member n al off a, h, ht => by
    simp only [Ty.WF] at h
    simp only [Ty.Tight] at ht
    have ih := Ty.tight hpw a h.1 ht
    have es : (Ty.member n al off a).size pw = n := by simp only [Ty.size, Ty.sizeTraits]
    have e : (Ty.member n al off a).traits pw = atField off (a.size pw) (a.traits pw) := by
      simp only [Ty.traits, Ty.sizeTraits, Ty.size]
    have hc : (Ty.member n al off a).cap pw = a.cap pw := by simp only [Ty.cap]
    rw [es, e, hc]
    exact tight_atField ih h.2
  | .enforce a, h, ht => by
    simp only [Ty.WF] at h
    simp only [Ty.Tight] at ht
    have ih := Ty.tight hpw a h.1 ht
    have es : (Ty.enforce a).size pw = a.size pw := by simp only [Ty.size, Ty.sizeTraits]
    have e : (Ty.enforce a).traits pw = a.traits pw := by simp only [Ty.traits, Ty.sizeTraits]
    have hc : (Ty.enforce a).cap pw = a.cap pw := by simp only [Ty.cap]
    rw [es, e, hc]
    exact ih
  | .option a, h, ht => by
    have h' := h
    simp only [Ty.WF] at h'
    simp only [Ty.Tight] at ht
    exact tight_option h (Ty.tight hpw a h'.1 ht) (Ty.lawOK hpw a h'.1)
  | .optionRef, h, _ => tight_word (w := pw) (off := 0) (Ty.lawOK hpw .optionRef h) (by omega)
      (by simp [Ty.size, Ty.sizeTraits])
      (fun x => x.setWidth 64 - 1) (fun l => (l + 1).setWidth pw) (fun _ => rfl) (fun _ _ _ => rfl)
      (fun a b e => setWidth_inj (by omega) (sub_right_inj e))

/-- so for every member -/
theorem Fields.tight {pw : Nat} (hpw : pw = 32 ∨ pw = 64) (n : Nat) : ∀ (fs : Fields), fs.WF pw n → fs.Tight →
    ∀ (i : Nat) (t : Traits) (c : Nat), (fs.traits pw)[i]? = some t → (fs.caps pw)[i]? = some c → TightT t n c
  | .nil, _, _, i, t, c, ht, _ => by simp [Fields.traits] at ht
  | .cons off a rest, h, hti, i, t, c, ht, hc => by
    simp only [Fields.WF] at h
    simp only [Fields.Tight] at hti
    obtain ⟨ha, hoff, hr⟩ := h
    simp only [Fields.traits] at ht
    simp only [Fields.caps] at hc
    cases i with
    | zero =>
      simp only [List.getElem?_cons_zero, Option.some.injEq] at ht hc
      subst ht; subst hc
      exact tight_atField (Ty.tight hpw a ha hti.1) hoff
    | succ i =>
      simp only [List.getElem?_cons_succ] at ht hc
      exact Fields.tight hpw n rest hr hti.2 i t c ht hc
end

theorem asOption_run {pw : Nat} (hpw : pw = 32 ∨ pw = 64) {T : Ty} (hwf : (Ty.option T).WF pw)
    (hm : (T.traits pw).maxLevel ≥ 1) {g v : Bytes} (hg : g.length = (Ty.option T).size pw) (hv : v.length = T.size pw) :
    asOption pw T g v = .ok v := by
  obtain ⟨bs, h1, _, h3, _⟩ := storeNone_spec hpw hwf hg
  rw [option_size_avail hm] at h3
  simp only [asOption, h1, Res.map, wr]
  rw [List.drop_eq_nil_of_le (by omega)]
  simp

end Opt
