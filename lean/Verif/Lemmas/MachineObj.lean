import Verif.Spec.ProgOK
import Verif.Spec.Optional
import Verif.Lemmas.Nested

/-!
# One option object: bytes, flag, lifetime
-/

namespace Opt

section bytes
variable {pw : Nat} {T : Ty}

theorem lenT (hpw : pw = 32 ∨ pw = 64) (hwf : (Ty.option T).WF pw) {b : Bytes} (hb : T.Valid pw b) :
    b.length = T.size pw := by
  simp only [Ty.WF] at hwf
  exact (Ty.lawOK hpw T hwf.1).size_eq b hb

theorem wr0_length (hwf : (Ty.option T).WF pw) {bs b : Bytes} (hl : bs.length = (Ty.option T).size pw)
    (hb : b.length ≤ T.size pw) : (wr bs 0 b).length = (Ty.option T).size pw := by
  have := option_size_ge hwf
  rw [wr_length, hl]; omega

theorem payload_wr (hwf : (Ty.option T).WF pw) {bs b : Bytes} (hl : bs.length = (Ty.option T).size pw)
    (hb : b.length = T.size pw) : T.payload pw (wr bs 0 b) = b := by
  have := option_size_ge hwf
  rw [Ty.payload, rd_wr_same hb (by omega)]

theorem flag_room (hwf : (Ty.option T).WF pw) (hs : ¬ (T.traits pw).maxLevel ≥ 1) :
    T.size pw + 1 ≤ (Ty.option T).size pw := by
  rw [option_size_flag hs]
  simp only [Ty.WF] at hwf
  exact roundTo_ge _ hwf.2.1

theorem flag_wr (hwf : (Ty.option T).WF pw) (hs : ¬ (T.traits pw).maxLevel ≥ 1) {bs b : Bytes}
    (hl : bs.length = (Ty.option T).size pw) (hb : b.length = T.size pw) :
    ld 8 (wr bs 0 b) (T.size pw) = ld 8 bs (T.size pw) := by
  have := flag_room hwf hs
  rw [ld, ld, rd_wr_disj (by omega) (by omega)]

theorem payload_st (hwf : (Ty.option T).WF pw) (hs : ¬ (T.traits pw).maxLevel ≥ 1) {bs : Bytes}
    (hl : bs.length = (Ty.option T).size pw) (f : Byte) :
    T.payload pw (st 8 bs (T.size pw) f) = T.payload pw bs := by
  have := flag_room hwf hs
  rw [Ty.payload, Ty.payload, st, rd_wr_disj (by rw [leBytes_length]; omega) (by omega)]

theorem flag_st (hwf : (Ty.option T).WF pw) (hs : ¬ (T.traits pw).maxLevel ≥ 1) {bs : Bytes}
    (hl : bs.length = (Ty.option T).size pw) (f : Byte) : ld 8 (st 8 bs (T.size pw) f) (T.size pw) = f := by
  have := flag_room hwf hs
  rw [ld_st_same (by decide) _ (by omega)]

theorem st_len (hwf : (Ty.option T).WF pw) (hs : ¬ (T.traits pw).maxLevel ≥ 1) {bs : Bytes}
    (hl : bs.length = (Ty.option T).size pw) (f : Byte) :
    (st 8 bs (T.size pw) f).length = (Ty.option T).size pw := by
  have := flag_room hwf hs
  rw [st_length _ (by omega), hl]

theorem hasValue_flag (hs : ¬ (T.traits pw).maxLevel ≥ 1) (bs : Bytes) :
    T.hasValue pw bs = decide (ld 8 bs (T.size pw) ≠ 0) := by
  simp only [Ty.hasValue, if_neg hs]

theorem hasValue_wr_sent (hpw : pw = 32 ∨ pw = 64) (hwf : (Ty.option T).WF pw) (hs : (T.traits pw).maxLevel ≥ 1)
    {bs b : Bytes} (hl : bs.length = (Ty.option T).size pw) (hb : T.Valid pw b) :
    T.hasValue pw (wr bs 0 b) = true := by
  have h := (storeValue_spec hpw hwf hl hb).1
  rwa [Ty.storeValue, if_pos hs] at h

/-- on storage without a flag, the payload is everything -/
theorem wr_sent (hs : (T.traits pw).maxLevel ≥ 1) {bs b : Bytes} (hl : bs.length = (Ty.option T).size pw)
    (hb : b.length = T.size pw) : wr bs 0 b = b := by
  rw [option_size_avail hs] at hl
  simp only [wr]; simp [hl, hb]

theorem payload_sent (hs : (T.traits pw).maxLevel ≥ 1) {bs : Bytes} (hl : bs.length = (Ty.option T).size pw) :
    T.payload pw bs = bs := by
  rw [option_size_avail hs] at hl
  rw [Ty.payload, rd_all hl]

theorem setLevel0_sent (hpw : pw = 32 ∨ pw = 64) (hwf : (Ty.option T).WF pw) (hs : (T.traits pw).maxLevel ≥ 1)
    {bs : Bytes} (hl : bs.length = (Ty.option T).size pw) :
    ∃ b, (T.traits pw).setLevel bs 0 = .ok b ∧ T.hasValue pw b = false ∧ b.length = (Ty.option T).size pw := by
  obtain ⟨b, h1, h2, h3, _⟩ := storeNone_spec hpw hwf hl
  rw [Ty.storeNone, if_pos hs] at h1
  exact ⟨b, h1, h2, h3⟩

end bytes

variable {Val : Type}

/-- the invariant of an option object `o` at address `i` and the value `x` of the variable it implements -/
structure ObjR (P : Prog Val) (i : Nat) (o : Obj) (x : Option Val) : Prop where
  len : o.bytes.length = (Ty.option (P.elem i).T).size P.pw
  flag : (P.elem i).sent P.pw = false →
    ld 8 o.bytes ((P.elem i).T.size P.pw) = 0 ∨ ld 8 o.bytes ((P.elem i).T.size P.pw) = 1
  hv : (P.elem i).T.hasValue P.pw o.bytes = x.isSome
  live : ∀ v, x = some v → o.alive = true ∧ (P.elem i).T.Valid P.pw (P.payload i o) ∧
    (P.elem i).decode (P.payload i o) = v
  dead : x = none → (P.elem i).trivDtor = false → o.alive = false

/-- the payload was made a live object of value `v`; the flag may not be set yet -/
structure MidR (P : Prog Val) (i : Nat) (o : Obj) (x : Option Val) : Prop where
  len : o.bytes.length = (Ty.option (P.elem i).T).size P.pw
  alive : o.alive = true
  live : ∃ v, x = some v ∧ (P.elem i).T.Valid P.pw (P.payload i o) ∧ (P.elem i).decode (P.payload i o) = v

theorem sent_iff {pw : Nat} {E : Elem Val} : E.sent pw = true ↔ (E.T.traits pw).maxLevel ≥ 1 := by
  simp [Elem.sent]

theorem sent_false_iff {pw : Nat} {E : Elem Val} : E.sent pw = false ↔ ¬ (E.T.traits pw).maxLevel ≥ 1 := by
  rw [← Bool.not_eq_true, sent_iff]

variable {P : Prog Val}

theorem Prog.OK.wfi (h : P.OK) (i : Nat) : (Ty.option (P.elem i).T).WF P.pw := h.wf _

theorem ObjR.dom {i : Nat} {o : Obj} {v : Val} (h : ObjR P i o (some v)) : (P.elem i).Dom P.pw v :=
  have ⟨_, h2, h3⟩ := h.live v rfl
  ⟨_, h2, h3⟩

theorem ObjR.payload_len (hP : P.OK) {i : Nat} {o : Obj} {x : Option Val} (h : ObjR P i o x) :
    (P.payload i o).length = (P.elem i).T.size P.pw := payload_length (hP.wfi i) h.len

/-- a live payload over any storage of the right size is `MidR` -/
theorem MidR.mk' (hP : P.OK) {i : Nat} {bs b : Bytes} {v : Val} (hl : bs.length = (Ty.option (P.elem i).T).size P.pw)
    (hb : (P.elem i).T.Valid P.pw b) (hv : (P.elem i).decode b = v) : MidR P i ⟨wr bs 0 b, true⟩ (some v) := by
  have hbl := lenT hP.pw (hP.wfi i) hb
  have hp : P.payload i ⟨wr bs 0 b, true⟩ = b := payload_wr (hP.wfi i) hl hbl
  exact ⟨wr0_length (hP.wfi i) hl (by omega), rfl, v, rfl, by rw [hp]; exact hb, by rw [hp]; exact hv⟩

/-- without a flag, `MidR` is already the invariant -/
theorem MidR.sent (hP : P.OK) {i : Nat} {o : Obj} {x : Option Val} (h : MidR P i o x)
    (hs : (P.elem i).sent P.pw = true) : ObjR P i o x := by
  obtain ⟨hl, ha, v, rfl, hv, hd⟩ := h
  rw [sent_iff] at hs
  have e : P.payload i o = o.bytes := payload_sent hs hl
  refine ⟨hl, fun h => ?_, ?_, fun u hu => ?_, fun h => ?_⟩
  · rw [sent_false_iff] at h; exact absurd hs h
  · have h1 := hasValue_wr_sent hP.pw (hP.wfi i) hs hl hv
    rw [e, wr_sent hs hl (by rw [hl, option_size_avail hs])] at h1
    exact h1
  · cases hu; exact ⟨ha, hv, hd⟩
  · cases h

/-- with a flag, setting it completes the construction -/
theorem MidR.setFlag (hP : P.OK) {i : Nat} {o : Obj} {x : Option Val} (h : MidR P i o x)
    (hs : (P.elem i).sent P.pw = false) :
    ObjR P i { o with bytes := st 8 o.bytes ((P.elem i).T.size P.pw) 1 } x := by
  obtain ⟨hl, ha, v, rfl, hv, hd⟩ := h
  rw [sent_false_iff] at hs
  have hf := flag_st (hP.wfi i) hs hl 1
  have e : P.payload i { o with bytes := st 8 o.bytes ((P.elem i).T.size P.pw) 1 } = P.payload i o :=
    payload_st (hP.wfi i) hs hl 1
  refine ⟨st_len (hP.wfi i) hs hl 1, fun _ => .inr hf, ?_, fun u hu => ?_, fun h => ?_⟩
  · rw [hasValue_flag hs, hf]; rfl
  · cases hu; exact ⟨ha, by rw [e]; exact hv, by rw [e]; exact hd⟩
  · cases h

/-- changing the value of an engaged option in place -/
theorem ObjR.write (hP : P.OK) {i : Nat} {o : Obj} {v u : Val} {b : Bytes} (h : ObjR P i o (some v))
    (hb : (P.elem i).T.Valid P.pw b) (hu : (P.elem i).decode b = u) : ObjR P i ⟨wr o.bytes 0 b, true⟩ (some u) := by
  have hm := MidR.mk' hP h.len hb hu
  cases hs : (P.elem i).sent P.pw
  · have hs' := hs
    rw [sent_false_iff] at hs
    have hbl := lenT hP.pw (hP.wfi i) hb
    have hf := flag_wr (hP.wfi i) hs h.len hbl
    refine ⟨hm.len, fun _ => by simp only [hf]; exact h.flag hs', ?_, fun w hw => ?_, fun h => ?_⟩
    · have := h.hv
      rw [hasValue_flag hs] at this ⊢
      rw [hf, this]; rfl
    · cases hw
      obtain ⟨_, _, w, e, h1, h2⟩ := hm
      cases e
      exact ⟨rfl, h1, h2⟩
    · cases h
  · exact hm.sent hP hs

/-- clearing the flag empties the option -/
theorem ObjR.clearFlag (hP : P.OK) {i : Nat} {o : Obj} {a : Bool}
    (hl : o.bytes.length = (Ty.option (P.elem i).T).size P.pw) (hs : (P.elem i).sent P.pw = false)
    (ha : (P.elem i).trivDtor = false → a = false) :
    ObjR P i ⟨st 8 o.bytes ((P.elem i).T.size P.pw) 0, a⟩ none := by
  rw [sent_false_iff] at hs
  have hf := flag_st (hP.wfi i) hs hl 0
  refine ⟨st_len (hP.wfi i) hs hl 0, fun _ => .inl hf, ?_, fun u hu => ?_, fun _ h => ha h⟩
  · rw [hasValue_flag hs, hf]; rfl
  · cases hu

/-- bytes of the right size that report no value, with nothing alive -/
theorem ObjR.empty {i : Nat} {bs : Bytes}
    (hl : bs.length = (Ty.option (P.elem i).T).size P.pw) (hs : (P.elem i).sent P.pw = true)
    (hv : (P.elem i).T.hasValue P.pw bs = false) : ObjR P i ⟨bs, false⟩ none :=
  ⟨hl, fun h => (by rw [h] at hs; cases hs), hv, fun u hu => (by cases hu), fun _ _ => rfl⟩

end Opt
