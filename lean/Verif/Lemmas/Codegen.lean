import Verif.Lemmas.X86

/-!
# The model's side of the sample functions
-/

namespace Opt.Codegen

open Opt.X86

section
variable {T : Ty} {P : Prog Bytes} {w : World} {o : Obj}

theorem obj_ok {i : Nat} (h : w.mem i = some o) : Prog.obj i w = .ok o w := by simp [Prog.obj, h]

theorem sample_hasValue (hP : Sample T P) (hs : (T.traits 64).maxLevel ≥ 1) (h : w.mem 0 = some o) :
    P.hasValue 0 w = .ok (T.hasValue 64 o.bytes) w := by
  obtain ⟨sc, he, -⟩ := hP.elem 0
  simp [Prog.hasValue, bind, M.seq, obj_ok h, he, Elem.sent, plainElem, hP.pw, hs, pure, M.ret]

theorem take_congr {a b : Bytes} {n : Nat} (h : a = b) : a.take n = b.take n := by rw [h]

/-- `reset` with levels -/
theorem sample_reset (hP : Sample T P) (hs : (T.traits 64).maxLevel ≥ 1) (h : w.mem 0 = some o) {b : Bytes}
    (hb : (T.traits 64).setLevel o.bytes 0 = .ok b) (hv : T.hasValue 64 b = false) :
    P.reset 0 w = .ok () { w with mem := upd w.mem 0 (some ⟨b, false⟩) } := by
  obtain ⟨sc, he, -⟩ := hP.elem 0
  have h2 : P.hasValue 0 { w with mem := upd w.mem 0 (some ⟨b, false⟩) } = .ok false { w with mem := upd w.mem 0 (some ⟨b, false⟩) } := by
    rw [sample_hasValue hP hs (o := ⟨b, false⟩) (by simp [upd]), hv]
  have hb : (T.traits 64).setLevel o.bytes 0#64 = .ok b := hb
  simp [Prog.reset, bind, M.seq, he, Elem.sent, plainElem, hP.pw, hs, Prog.setLevel0, obj_ok h, hb, Prog.setObj, h2, M.check]

/-- default constructor with levels -/
theorem sample_default (hP : Sample T P) (hs : (T.traits 64).maxLevel ≥ 1) (h : w.mem 0 = none) {g b : Bytes}
    (hg : ∀ n, P.garbage 0 n = g) (hb : (T.traits 64).setLevel (wr g 0 [0]) 0 = .ok b) (hv : T.hasValue 64 b = false) :
    P.ctorDefault 0 w = .ok () { w with mem := upd (upd (upd w.mem 0 (some ⟨g, false⟩)) 0 (some ⟨wr g 0 [0], false⟩)) 0 (some ⟨b, false⟩) } := by
  obtain ⟨sc, he, -⟩ := hP.elem 0
  have h2 : ∀ w' : World, w'.mem 0 = some ⟨b, false⟩ → P.hasValue 0 w' = .ok false w' := fun w' h' => by
    rw [sample_hasValue hP hs h', hv]
  have hb : (T.traits 64).setLevel (wr g 0 [0#8]) 0#64 = .ok b := hb
  simp [Prog.ctorDefault, bind, M.seq, Prog.newObj, h, hg, he, Elem.sent, plainElem, hP.pw, hs, Prog.setPayload, Prog.setLevel0, Prog.obj,
    hb, Prog.setObj, h2, M.check, upd]

/-- default constructor with a flag -/
theorem sample_default_flag (hP : Sample T P) (hs : ¬ (T.traits 64).maxLevel ≥ 1) (h : w.mem 0 = none) {g : Bytes}
    (hg : ∀ n, P.garbage 0 n = g) :
    P.ctorDefault 0 w = .ok () { w with mem := upd (upd w.mem 0 (some ⟨g, false⟩)) 0 (some ⟨st 8 g (T.size 64) 0, false⟩) } := by
  obtain ⟨sc, he, -⟩ := hP.elem 0
  have hs' : (T.traits 64).maxLevel = 0 := by omega
  simp [Prog.ctorDefault, bind, M.seq, Prog.newObj, h, hg, he, Elem.sent, plainElem, hP.pw, hs', Prog.setFlag, Prog.obj, Prog.setObj, upd]

/-- storing a value -/
theorem sample_place (hP : Sample T P) (h : w.mem 0 = some o) {v : Bytes} :
    P.constructInPlace 0 (.move v) w = .ok () { w with mem := upd w.mem 0 (some ⟨wr o.bytes 0 v, true⟩) } ∧
    P.constructAt 0 (.move v) w = .ok () { w with mem := upd w.mem 0 (some ⟨wr o.bytes 0 v, true⟩) } := by
  obtain ⟨sc, he, -⟩ := hP.elem 0
  have h1 : P.constructInPlace 0 (.move v) w = .ok () { w with mem := upd w.mem 0 (some ⟨wr o.bytes 0 v, true⟩) } := by
    simp [Prog.constructInPlace, bind, M.seq, obj_ok h, he, plainElem, Src.isSelf, Prog.srcVal, pure, M.ret, Elem.ctorTriv, Prog.kind,
      Prog.srcBytes, Prog.now, hP.build, Prog.setPayload, Prog.setObj]
  refine ⟨h1, ?_⟩
  simp only [Prog.constructAt]
  split
  · exact h1
  · simp [Prog.constructByAssign, bind, M.seq, obj_ok h, he, plainElem, Prog.srcVal, pure, M.ret, Elem.ctorTriv, Prog.kind,
      Prog.srcBytes, Prog.now, hP.build, Prog.setPayload, Prog.setObj]

/-- what follows after storing a value: the check, or the flag -/
theorem sample_after (hP : Sample T P) {bs v : Bytes} {a : Bool} (h : w.mem 0 = some ⟨wr bs 0 v, a⟩)
    (hv : (T.traits 64).maxLevel ≥ 1 → T.hasValue 64 (wr bs 0 v) = true) :
    ∃ w', (if (P.elem 0).sent P.pw then (do let h ← P.hasValue 0; M.check h) else P.setFlag 0 true : M World Unit) w = .ok () w' ∧
      w'.mem 0 = some ⟨T.storeValue 64 bs v, a⟩ ∧ ∀ k, k ≠ 0 → w'.mem k = w.mem k := by
  obtain ⟨sc, he, -⟩ := hP.elem 0
  by_cases hs : (T.traits 64).maxLevel ≥ 1
  · refine ⟨w, ?_, ?_, fun _ _ => rfl⟩
    · simp [he, Elem.sent, plainElem, hP.pw, hs, bind, M.seq, sample_hasValue hP hs h, hv hs, M.check]
    · rw [h, Ty.storeValue, if_pos hs]
  · refine ⟨{ w with mem := upd w.mem 0 (some ⟨st 8 (wr bs 0 v) (T.size 64) 1, a⟩) }, ?_, ?_, fun k hk => by simp [upd, hk]⟩
    · have hs' : (T.traits 64).maxLevel = 0 := by omega
      simp [he, Elem.sent, plainElem, hP.pw, hs', Prog.setFlag, bind, M.seq, obj_ok h, Prog.setObj]
    · simp [upd, Ty.storeValue, hs]

/-- constructor from a value -/
theorem sample_value (hP : Sample T P) (h : w.mem 0 = none) {g v : Bytes} (hg : ∀ n, P.garbage 0 n = g)
    (hv : (T.traits 64).maxLevel ≥ 1 → T.hasValue 64 (wr g 0 v) = true) :
    Gives T (P.ctorValue 0 (.move v) w) w (T.storeValue 64 g v) := by
  have h1 := sample_place hP (w := { w with mem := upd w.mem 0 (some ⟨g, false⟩) }) (o := ⟨g, false⟩) (by simp [upd]) (v := v)
  obtain ⟨w', h2, h3, h4⟩ := sample_after hP (w := { w with mem := upd (upd w.mem 0 (some ⟨g, false⟩)) 0 (some ⟨wr g 0 v, true⟩) })
    (a := true) (by simp [upd]) hv
  refine ⟨w', _, ?_, h3, rfl, fun k hk => by rw [h4 k hk]; simp [upd, hk]⟩
  simp only [Prog.ctorValue, Prog.evalArg, Prog.ctorArg, bind, pure, M.ret, M.seq, Prog.newObj, h, hg, M.onThrow, h1.1]
  exact h2

/-- `operator=` and `emplace` from a value -/
theorem sample_construct (hP : Sample T P) (h : w.mem 0 = some o) {v : Bytes}
    (hv : (T.traits 64).maxLevel ≥ 1 → T.hasValue 64 (wr o.bytes 0 v) = true) :
    ∃ w', P.construct 0 (.move v) w = .ok () w' ∧ w'.mem 0 = some ⟨T.storeValue 64 o.bytes v, true⟩ ∧ ∀ k, k ≠ 0 → w'.mem k = w.mem k := by
  have h1 := sample_place hP h (v := v)
  obtain ⟨w', h2, h3, h4⟩ := sample_after hP (w := { w with mem := upd w.mem 0 (some ⟨wr o.bytes 0 v, true⟩) })
    (a := true) (by simp [upd]) hv
  refine ⟨w', ?_, h3, fun k hk => by rw [h4 k hk]; simp [upd, hk]⟩
  simp only [Prog.construct, bind, M.seq, h1.2]
  exact h2

theorem sample_assign (hT : ∀ a n, T ≠ .array a n) (hP : Sample T P) (h : w.mem 0 = some o) {v : Bytes}
    (hv : (T.traits 64).maxLevel ≥ 1 → T.hasValue 64 (wr o.bytes 0 v) = true) :
    Gives T (P.assignValue 0 (.move v) w) w (T.storeValue 64 o.bytes v) := by
  obtain ⟨sc, he, hsc⟩ := hP.elem 0
  obtain ⟨w', h1, h2, h3⟩ := sample_construct hP h hv
  refine ⟨w', _, ?_, h2, rfl, h3⟩
  simp only [Prog.assignValue, Prog.evalArg, bind, pure, M.ret, M.seq, he, plainElem, hsc hT, if_true, h1]

theorem sample_emplace (hP : Sample T P) (hs : (T.traits 64).maxLevel ≥ 1) (h : w.mem 0 = some o) {v b : Bytes}
    (hb : (T.traits 64).setLevel o.bytes 0 = .ok b) (hn : T.hasValue 64 b = false) (hv : T.hasValue 64 (wr b 0 v) = true) :
    Gives T (P.emplace 0 (.move v) w) w (wr b 0 v) := by
  obtain ⟨w', h1, h2, h3⟩ := sample_construct hP (w := { w with mem := upd w.mem 0 (some ⟨b, false⟩) }) (o := ⟨b, false⟩)
    (by simp [upd]) (v := v) fun _ => hv
  have h4 : T.storeValue 64 b v = wr b 0 v := by rw [Ty.storeValue, if_pos hs]
  refine ⟨w', _, ?_, h2, by rw [h4], fun k hk => by rw [h3 k hk]; simp [upd, hk]⟩
  simp only [Prog.emplace, Prog.evalArg, bind, pure, M.ret, M.seq, sample_reset hP hs h hb hn, h1, Prog.getCheck,
    sample_hasValue hP hs h2, h4, hv, M.check, if_true]

/-- copy assignment -/
theorem sample_copy (hP : Sample T P) (h : w.mem 0 = some o) {j : Nat} {p : Obj} (hj : w.mem j = some p) :
    Gives T (P.assignFrom 0 j false w) w p.bytes := by
  obtain ⟨sc, he, -⟩ := hP.elem 0
  refine ⟨{ w with mem := upd w.mem 0 (some p) }, p, ?_, by simp [upd], rfl, fun k hk => by simp [upd, hk]⟩
  have hm : (plainElem T sc).members.copyAssign = .default := by rfl
  simp [Prog.assignFrom, hP.cls 0 j, he, hm, Prog.copyBytes, bind, M.seq, obj_ok h, obj_ok hj, Prog.setObj]

end

/-! ## Registers -/

open State

theorem setWidth_merge (old v : BitVec 64) : (merge .b old v).setWidth 8 = v.setWidth 8 := by
  apply BitVec.eq_of_getLsbD_eq
  intro i hi
  simp only [merge, low, Width.bytes]
  simp [hi]

theorem low_merge_b (old v : BitVec 64) : low .b (merge .b old v) = low .b v := by
  simp only [low, Width.bytes]
  rw [setWidth_merge]

theorem merge_d (old v : BitVec 64) : merge .d old v = low .d v := rfl

theorem merge_q (old v : BitVec 64) : merge .q old v = v := rfl

theorem low_q (v : BitVec 64) : low .q v = v := by simp [low, Width.bytes]

theorem double_nat : (0xfff6c79f55b0898f#64).toNat = 0xfff6c79f55b0898f := by decide +kernel

theorem double_level (bs : Bytes) : ((Ty.float64 true 8).traits 64).setLevel bs 0 = .ok (wr bs 0 (leBytes 8 0xfff6c79f55b0898f)) := by
  have : (0b1111111111110110110001111001111101010101101100001000100110001111#64 + 0#64).toNat = 0xfff6c79f55b0898f := by decide +kernel
  exact congrArg (fun v => Res.ok (wr bs 0 (leBytes 8 v))) this

/-- the pattern of the empty `double` -/
theorem imm_double : low .q (BitVec.ofInt 64 (-0x93860aa4f7671)) = 0xfff6c79f55b0898f#64 := by decide +kernel

theorem byte_at (m : Mem) (a : BitVec 64) : BitVec.ofNat 64 (leVal (read m (a + BitVec.ofInt 64 0) 1)) = (m a).setWidth 64 := by
  simp [X86.read, leVal]

theorem add_here (a : BitVec 64) : a + BitVec.ofInt 64 0 = a := by simp

/-- a value of `w` bits in memory -/
theorem read_ld (m : Mem) (a : BitVec 64) (n : Nat) (hn : n ≤ 8) :
    BitVec.ofNat 64 (leVal (read m a n)) = (ld (8 * n) (read m a n) 0).setWidth 64 := by
  have h := leVal_lt (read m a n)
  rw [read_length] at h
  have h8 : (256 : Nat) ^ n ≤ 256 ^ 8 := Nat.pow_le_pow_right (by decide) hn
  have hp : (256 : Nat) ^ n = 2 ^ (8 * n) := by rw [Nat.pow_mul]
  apply BitVec.eq_of_toNat_eq
  have e : rd (read m a n) 0 (8 * n / 8) = read m a n := by
    have : 8 * n / 8 = n := by omega
    rw [rd, this, List.drop_zero, List.take_of_length_le (by rw [read_length]; omega)]
  rw [ld, e]
  simp only [BitVec.toNat_ofNat, BitVec.toNat_setWidth]
  rw [← hp, Nat.mod_eq_of_lt (by omega), Nat.mod_eq_of_lt h, Nat.mod_eq_of_lt (by omega)]

theorem wr_all {bs src : Bytes} (h : src.length = bs.length) : wr bs 0 src = src := by
  simp [wr, h]

/-- code that answers a question about one byte -/
theorem asks_byte {T : Ty} {op : Prog Bytes → M World Bool} {l : Listing} (f : Byte → Bool) (hT : objSize T = 1)
    (hop : ∀ P w o x, Sample T P → w.mem 0 = some o → o.bytes = [x] → op P w = .ok (f x) w)
    (hrun : ∀ s, ∃ s', run l.code s = some s' ∧ s'.reg .rsp = s.reg .rsp ∧ s'.mem = s.mem ∧
      (s'.reg .rax).setWidth 8 = if f (s.mem (arg0 l.win s)) then 1#8 else 0#8) : Asks T op l := by
  intro s
  obtain ⟨s', h1, h2, h3, h4⟩ := hrun s
  refine ⟨s', h1, ⟨h2, fun x _ _ => by rw [h3]⟩, fun P w o hP ho hb => ⟨_, hop P w o _ hP ho ?_, h4⟩⟩
  rw [hb, hT]
  simp [X86.read]

/-- code that compares a number -/
theorem asks_word {T : Ty} {l : Listing} (n : Nat) (hT : objSize T = n) (hs : (T.traits 64).maxLevel ≥ 1)
    (hrun : ∀ s, ∃ s', run l.code s = some s' ∧ s'.reg .rsp = s.reg .rsp ∧ s'.mem = s.mem ∧
      (s'.reg .rax).setWidth 8 = if T.hasValue 64 (read s.mem (arg0 l.win s) n) then 1#8 else 0#8) : Asks T (fun P => P.hasValue 0) l := by
  intro s
  obtain ⟨s', h1, h2, h3, h4⟩ := hrun s
  refine ⟨s', h1, ⟨h2, fun x _ _ => by rw [h3]⟩, fun P w o hP ho hb => ⟨_, sample_hasValue hP hs ho, ?_⟩⟩
  rw [hb, hT]
  exact h4

/-! ## Results in registers -/

theorem leBytes_take (v : Nat) : ∀ {n m : Nat}, n ≤ m → (leBytes m v).take n = leBytes n v := by
  intro n
  induction n generalizing v with
  | zero => intro m _; rfl
  | succ n ih =>
    intro m h
    cases m with
    | zero => omega
    | succ m => simp only [leBytes, List.take_succ_cons, ih (v / 256) (by omega : n ≤ m)]

theorem leBytes_mod (n v : Nat) : leBytes n (v % 256 ^ n) = leBytes n v := by
  rw [← leVal_leBytes]
  have := leBytes_leVal (leBytes n v)
  rwa [leBytes_length] at this

theorem leBytes_low (n : Nat) (v : BitVec 64) : leBytes n (v.setWidth (8 * n)).toNat = leBytes n v.toNat := by
  have hp : (2 : Nat) ^ (8 * n) = 256 ^ n := by rw [Nat.pow_mul]
  rw [BitVec.toNat_setWidth, hp, leBytes_mod]

theorem setWidth_merge_w (old v : BitVec 64) : (merge .w old v).setWidth 16 = v.setWidth 16 := by
  apply BitVec.eq_of_getLsbD_eq
  intro i hi
  simp only [merge, low, Width.bytes]
  simp [hi]

/-- an option of up to 8 bytes is in `rax` -/
theorem returned_rax {T : Ty} {n : Nat} (hT : objSize T = n) (hn : n ≤ 8) (s s' : State) :
    returned false T s s' = leBytes n (s'.reg .rax).toNat := by
  have h : inRegs false T = true := by simp [inRegs, hT]; omega
  rw [returned, if_pos h, hT, List.take_append_of_le_length (by rw [leBytes_length]; exact hn), leBytes_take _ hn]

/-- a larger one in `rax` and `rdx` -/
theorem returned_both {T : Ty} (hT : objSize T = 16) (s s' : State) :
    returned false T s s' = leBytes 8 (s'.reg .rax).toNat ++ leBytes 8 (s'.reg .rdx).toNat := by
  have h : inRegs false T = true := by simp [inRegs, hT]
  rw [returned, if_pos h, hT, List.take_of_length_le (by simp [leBytes_length])]

theorem red_zone {rsp x : BitVec 64} {k n : Nat} (hn : n ≤ k) (hk : k ≤ 128) (h : ¬ Within (rsp - 128) 128 x) :
    ¬ Within (rsp + BitVec.ofInt 64 (-(k : Int))) n x := by
  have : BitVec.ofInt 64 (-(k : Int)) = - BitVec.ofNat 64 k := by
    rw [BitVec.ofInt_neg, BitVec.ofInt_natCast]
  rw [this]
  unfold Within at *
  have := rsp.isLt
  have := x.isLt
  have h128 : (128 : BitVec 64).toNat = 128 := rfl
  simp only [BitVec.toNat_sub, BitVec.toNat_add, BitVec.toNat_neg, BitVec.toNat_ofNat, h128] at *
  omega

/-- code that builds the result below the stack pointer -/
theorem makes_of_stack {T : Ty} {op : Prog Bytes → M World Unit} {l : Listing} (k : Nat) (ws : List (Nat × Bytes))
    (hr : inRegs l.win T = true) (hk : objSize T ≤ k) (hk' : k ≤ 128) (hw : ∀ w ∈ ws, w.1 + w.2.length ≤ objSize T)
    (hrun : ∀ s, ∃ s', run l.code s = some s' ∧ s'.reg .rsp = s.reg .rsp ∧
      s'.mem = stores (s.reg .rsp + BitVec.ofInt 64 (-(k : Int))) ws s.mem ∧
      returned l.win T s s' = X86.read s'.mem (s.reg .rsp + BitVec.ofInt 64 (-(k : Int))) (objSize T))
    (hm : ∀ P w g, Sample T P → (∀ n, P.garbage 0 n = g) → g.length = objSize T → w.mem 0 = none → Gives T (op P w) w (puts ws g)) :
    Makes T op l := by
  refine makes_of_regs ws hr (fun s => ?_) hm
  obtain ⟨s', h1, h2, h3, h4⟩ := hrun s
  refine ⟨s', _, h1, h2, read_length s.mem (s.reg .rsp + BitVec.ofInt 64 (-(k : Int))) _, ?_, fun x hx => ?_⟩
  · rw [h4, h3, read_stores _ (by omega) ws _ hw]
  · rw [h3, stores_other (by omega) (red_zone hk hk' hx) ws _ hw]

/-! ## Comparisons -/

theorem hasValue_float (bs : Bytes) : (Ty.float32 true).hasValue 64 bs = decide (ld 32 bs 0 ≠ 0xffbf69af#32) := by
  simp only [Ty.hasValue, Ty.traits, Ty.sizeTraits, if_true, float32SNaNTraits, ge_iff_le, Nat.reduceLeDiff]
  rw [decide_eq_decide]
  refine not_congr ?_
  generalize ld 32 bs 0 = v
  constructor
  · intro h
    have := congrArg BitVec.toNat h
    have := v.isLt
    apply BitVec.eq_of_toNat_eq
    simp at *
    omega
  · intro h
    subst h
    rfl

theorem hasValue_double (bs : Bytes) : (Ty.float64 true 8).hasValue 64 bs = decide (ld 64 bs 0 ≠ 0xfff6c79f55b0898f#64) := by
  simp only [Ty.hasValue, Ty.traits, Ty.sizeTraits, if_true, float64SNaNTraits, ge_iff_le, Nat.reduceLeDiff]
  rw [decide_eq_decide]
  refine not_congr ?_
  generalize ld 64 bs 0 = v
  constructor
  · intro h
    have := congrArg BitVec.toNat h
    have := v.isLt
    apply BitVec.eq_of_toNat_eq
    simp at *
    omega
  · intro h
    subst h
    rfl

/-- `setne` -/
theorem answer {p q : Prop} [Decidable p] [Decidable q] (h : p ↔ q) :
    (if (!decide p) = true then (1 : BitVec 64) else 0).setWidth 8 = if decide (¬ q) = true then 1#8 else 0#8 := by
  by_cases hp : p
  · simp [hp, h.1 hp]
  · simp [hp, mt h.2 hp]

theorem sub_zero_iff {n : Nat} (x y : BitVec n) : x - y = 0#n ↔ x = y := by
  constructor
  · intro h
    have h2 : x - y + y = 0#n + y := by rw [h]
    rwa [BitVec.sub_add_cancel, BitVec.zero_add] at h2
  · rintro rfl
    exact BitVec.sub_self _

theorem low_zero_iff (x : BitVec 64) : low .d x = 0 ↔ x.setWidth 32 = 0#32 := by
  simp only [low, Width.bytes]
  constructor
  · intro h
    have := congrArg (BitVec.setWidth 32) h
    simpa using this
  · intro h
    have h : x.setWidth (8 * 4) = 0#(8 * 4) := h
    rw [h]
    simp

theorem widen (v : BitVec 32) : (v.setWidth 64).setWidth 32 = v := by
  simp

theorem low_widen (v : BitVec 32) : low .d (v.setWidth 64) = v.setWidth 64 := by
  have : (v.setWidth 64).setWidth (8 * 4) = v := widen v
  simp only [low, Width.bytes]
  rw [this]

theorem cmp_float (v : BitVec 32) : low .d (v.setWidth 64 - low .d (BitVec.ofInt 64 0xffbf69af)) = 0 ↔ v = 0xffbf69af#32 := by
  have hc : (- low .d (BitVec.ofInt 64 0xffbf69af)).setWidth 32 = - 0xffbf69af#32 := by decide +kernel
  rw [low_zero_iff, BitVec.sub_eq_add_neg, BitVec.setWidth_add _ _ (by decide), hc, widen, ← BitVec.sub_eq_add_neg, sub_zero_iff]

theorem add_float (v : BitVec 32) :
    low .d (low .d (low .d (v.setWidth 64)) + low .d (BitVec.ofInt 64 0x409651)) = 0 ↔ v = 0xffbf69af#32 := by
  have hc : (low .d (BitVec.ofInt 64 0x409651)).setWidth 32 = - 0xffbf69af#32 := by decide +kernel
  rw [low_widen, low_widen, low_zero_iff, BitVec.setWidth_add _ _ (by decide), hc, widen, ← BitVec.sub_eq_add_neg, sub_zero_iff]

theorem cmp_double (v : BitVec 64) : v.setWidth 64 - BitVec.ofInt 64 (-0x93860aa4f7671) = 0 ↔ v = 0xfff6c79f55b0898f#64 := by
  have hc : BitVec.ofInt 64 (-0x93860aa4f7671) = 0xfff6c79f55b0898f#64 := by decide +kernel
  rw [hc, BitVec.setWidth_eq]
  exact sub_zero_iff _ _

theorem add_double (v : BitVec 64) : v.setWidth 64 + BitVec.ofInt 64 0x93860aa4f7671 = 0 ↔ v = 0xfff6c79f55b0898f#64 := by
  have hc : BitVec.ofInt 64 0x93860aa4f7671 = - 0xfff6c79f55b0898f#64 := by decide +kernel
  rw [hc, BitVec.setWidth_eq, ← BitVec.sub_eq_add_neg]
  exact sub_zero_iff _ _

end Opt.Codegen
