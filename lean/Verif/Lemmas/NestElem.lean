import Verif.Model.NestElem
import Verif.Lemmas.MachineRun
import Verif.Lemmas.View
import Verif.Props.Machine

/-!
# Lemmas about options of options as programs
-/

namespace Opt

variable {Val : Type} {P : Prog Val}

/-- which special members of `option<T>` are defaulted -/
theorem members_default (a b c d e : Bool) :
    let E := (optionBase a b c d e false).getD implicitMembers
    decide (E.copyCtor = .default) = a ∧ decide (E.moveCtor = .default) = c ∧
    decide (E.copyAssign = .default) = (a && (b && e)) ∧ decide (E.moveAssign = .default) = (c && (d && e)) := by
  revert a b c d e; decide

theorem Elem.nest_triv (pw : Nat) (E : Elem Val) : (E.nest pw).trivCopyCtor = E.trivCopyCtor ∧
    (E.nest pw).trivMoveCtor = E.trivMoveCtor ∧
    (E.nest pw).trivCopyAssign = (E.trivCopyCtor && (E.trivCopyAssign && E.trivDtor)) ∧
    (E.nest pw).trivMoveAssign = (E.trivMoveCtor && (E.trivMoveAssign && E.trivDtor)) :=
  members_default E.trivCopyCtor E.trivCopyAssign E.trivMoveCtor E.trivMoveAssign E.trivDtor

theorem nest_elem (g : Nat → Nat → Bytes) (i : Nat) : (P.nest g).elem i = (P.elem i).nest P.pw := rfl

/-- an option object as an element: live bytes, and its value -/
theorem ObjR.elem {i : Nat} {o : Obj} {x : Option Val} (h : ObjR P i o x) :
    (Ty.option (P.elem i).T).Valid P.pw o.bytes ∧ ((P.elem i).nest P.pw).decode o.bytes = x := by
  constructor
  · rw [Ty.Valid]
    refine ⟨h.len, fun h0 => h.flag (sent_false_iff.2 (by omega)), fun he => ?_⟩
    rw [h.hv] at he
    cases x with
    | none => cases he
    | some v => exact (h.live v rfl).2.1
  · simp only [Elem.nest, h.hv]
    cases x with
    | none => rfl
    | some v => simp only [Option.isSome_some, if_true]; rw [← (h.live v rfl).2.2]; rfl

theorem Elem.nest_dom (pw : Nat) (hpw : pw = 32 ∨ pw = 64) (E : Elem Val) (hwf : (Ty.option E.T).WF pw) (x : Option Val) :
    (E.nest pw).Dom pw x ↔ ∀ v, x = some v → E.Dom pw v := by
  constructor
  · rintro ⟨bs, hb, hd⟩ v rfl
    simp only [Elem.nest] at hd hb
    split at hd
    · rename_i he
      cases hd
      exact ⟨_, payload_valid hb he, rfl⟩
    · cases hd
  · intro h
    cases x with
    | none =>
      obtain ⟨bs, _, h2, _, h4⟩ := storeNone_spec hpw hwf (g := List.replicate ((Ty.option E.T).size pw) 0) (by simp)
      exact ⟨bs, h4, by simp only [Elem.nest, h2]; rfl⟩
    | some v =>
      obtain ⟨b, hb, hd⟩ := h v rfl
      obtain ⟨h1, h2, h3, h4⟩ := storeValue_spec hpw hwf (g := List.replicate ((Ty.option E.T).size pw) 0) (by simp) hb
      exact ⟨_, h4, by simp only [Elem.nest, h1, h2, hd]; rfl⟩

theorem Prog.OK.storage (hP : P.OK) (thr : Bool) {i : Nat} {old : Bytes}
    (ho : old.length = (Ty.option (P.elem i).T).size P.pw) : (P.storage thr i old).OK where
  pw := hP.pw
  wf := hP.wf
  size := hP.size
  tcc_td := hP.tcc_td
  tmc_td := hP.tmc_td
  scalar := hP.scalar
  garbage := fun k n => by
    simp only [Prog.storage]
    split
    · subst_vars; exact ho
    · exact hP.garbage k n
  build := hP.build
  partial_ := hP.partial_
  dead := hP.dead
  moved := hP.moved
  selfMoved := hP.selfMoved
  broken := hP.broken
  conv := hP.conv

theorem fresh_inv (n : Nat) : P.Inv (World.fresh n) := fun i o h => by cases h

theorem built_spec (hP : P.OK) {i n : Nat} {x : Option Val} {old : Bytes}
    (ho : old.length = (Ty.option (P.elem i).T).size P.pw) (hx : ∀ v, x = some v → (P.elem i).Dom P.pw v) :
    (Ty.option (P.elem i).T).Valid P.pw (P.built i n x old) ∧
      ((P.elem i).nest P.pw).decode (P.built i n x old) = x := by
  have hS := hP.storage false ho
  cases x with
  | none =>
    obtain ⟨o, h1, h2⟩ := Prog.ctorDefault_run hS (w := World.fresh n) (i := i) rfl
    have e : P.built i n none old = o.bytes := by
      simp only [Prog.built, h1, Out.bytesAt, World.put, upd_same]; rfl
    rw [e]
    exact ObjR.elem (P := P) ⟨h2.len, h2.flag, h2.hv, h2.live, h2.dead⟩
  | some v =>
    obtain ⟨w', h1, h2, h3, _⟩ := C20_construct_value hS (fresh_inv n) (i := i) (src := .args v) (v := v)
      (hx v rfl) rfl rfl (.inr rfl)
    have hR := Prog.abs_R h2
    have hm : (Prog.view (P.storage false i old) w') i = some (some v) := by rw [h3, upd_same]
    obtain ⟨o, h4, h5⟩ := hR.some' hm
    have e : P.built i n (some v) old = o.bytes := by
      simp only [Prog.built, h1, Out.bytesAt, h4]; rfl
    rw [e]
    exact ObjR.elem (P := P) ⟨h5.len, h5.flag, h5.hv, h5.live, h5.dead⟩

/-- the storage after the failed copy -/
theorem leftOver_base (hP : P.OK) {i n : Nat} {k : Kind} (hk : k ≠ .args) {old : Bytes}
    (ho : old.length = (Ty.option (P.elem i).T).size P.pw) :
    ∃ o, (P.storage true i old).ctorDefault i (World.fresh n) = .ok () ((World.fresh n).put i o) ∧
      ObjR P i o none ∧ P.leftOver i k n old = if (P.cxx20 || !(P.elem i).trivMoveAssign) && !(P.elem i).scalar then
        wr o.bytes 0 (P.partial_ i k n ((P.elem i).T.payload P.pw o.bytes)) else o.bytes := by
  obtain ⟨o, h1, h2⟩ := Prog.ctorDefault_run (hP.storage true ho) (w := World.fresh n) (i := i) rfl
  refine ⟨o, h1, ⟨h2.len, h2.flag, h2.hv, h2.live, h2.dead⟩, ?_⟩
  rw [Prog.leftOver, if_neg hk]
  simp only [h1, Out.bytesAt, World.put, upd_same]; rfl

theorem leftOver_length (hP : P.OK) {i n : Nat} {k : Kind} {old : Bytes}
    (ho : old.length = (Ty.option (P.elem i).T).size P.pw) :
    (P.leftOver i k n old).length = (Ty.option (P.elem i).T).size P.pw := by
  by_cases hk : k = .args
  · rw [Prog.leftOver, if_pos hk]
    split
    · exact ho
    · exact wr0_length (hP.wfi i) ho (by rw [hP.partial_ i k n _ (payload_length (hP.wfi i) ho)]; exact Nat.le_refl _)
  obtain ⟨o, _, h2, h3⟩ := leftOver_base (n := n) hP hk ho
  rw [h3]
  split
  · exact wr0_length (hP.wfi i) h2.len (by rw [hP.partial_ i k n _ (payload_length (hP.wfi i) h2.len)]; exact Nat.le_refl _)
  · exact h2.len

/-- the program of nested options respects the ordinary requirements -/
theorem nest_ok (hP : P.OK) (g : Nat → Nat → Bytes)
    (hwf : ∀ c, (Ty.option (Ty.option (P.elemOf c).T)).WF P.pw)
    (hg : ∀ i n, (g i n).length = (Ty.option (Ty.option (P.elem i).T)).size P.pw) : (P.nest g).OK where
  pw := hP.pw
  wf := hwf
  size := fun c => Nat.le_trans (hP.size c) (option_size_ge (hP.wf c))
  tcc_td := fun c h => hP.tcc_td c ((Elem.nest_triv P.pw _).1.symm.trans h)
  tmc_td := fun c h => hP.tmc_td c ((Elem.nest_triv P.pw _).2.1.symm.trans h)
  scalar := fun c h => by cases h
  garbage := hg
  build := fun i n x old hx ho => built_spec hP ho ((Elem.nest_dom _ hP.pw _ (hP.wfi i) x).1 hx)
  partial_ := fun i k n old ho => leftOver_length hP ho
  dead := fun i n old ho => by
    simp only [Prog.nest]
    split
    · exact (wr0_length (hP.wfi i) ho (by rw [hP.dead i n _ (payload_length (hP.wfi i) ho)]; exact Nat.le_refl _))
    · exact ho
  moved := fun f i n x hx => by
    have h := (Elem.nest_dom _ hP.pw _ (hP.wfi i) x).1 hx
    refine (Elem.nest_dom _ hP.pw _ (hP.wfi i) _).2 fun v hv => ?_
    simp only [Prog.nest, Option.map_eq_some_iff] at hv
    obtain ⟨u, hu, rfl⟩ := hv
    exact hP.moved f i n u (h u hu)
  selfMoved := fun i n x hx => by
    have h := (Elem.nest_dom _ hP.pw _ (hP.wfi i) x).1 hx
    refine (Elem.nest_dom _ hP.pw _ (hP.wfi i) _).2 fun v hv => ?_
    simp only [Prog.nest, Option.map_eq_some_iff] at hv
    obtain ⟨u, hu, rfl⟩ := hv
    exact hP.selfMoved i n u (h u hu)
  broken := fun i n x y hx hy => by
    have h := (Elem.nest_dom _ hP.pw _ (hP.wfi i) x).1 hx
    have h' := (Elem.nest_dom _ hP.pw _ (hP.wfi i) y).1 hy
    refine (Elem.nest_dom _ hP.pw _ (hP.wfi i) _).2 fun v hv => ?_
    simp only [Prog.nest] at hv
    split at hv
    · cases hv; exact hP.broken i n _ _ (h _ rfl) (h' _ rfl)
    · cases hv; exact hP.moved _ _ _ _ (h _ rfl)
    · cases hv
  conv := fun c d x hx => by
    have h := (Elem.nest_dom _ hP.pw _ (hP.wf d) x).1 hx
    refine (Elem.nest_dom _ hP.pw _ (hP.wf c) _).2 fun v hv => ?_
    simp only [Prog.nest, Option.map_eq_some_iff] at hv
    obtain ⟨u, hu, rfl⟩ := hv
    exact hP.conv c d u (h u hu)

theorem nest_balanced (g : Nat → Nat → Bytes) : (P.nest g).Balanced := by
  intro c
  have h := (Elem.nest_triv P.pw (P.elemOf c)).2.2.2
  cases ht : (P.elemOf c).trivDtor
  · exact .inr (.inl (by simp only [Prog.nest]; rw [h, ht]; simp))
  · exact .inr (.inr ht)

theorem nestN_facts (g : Nat → Nat → Nat → Bytes) (n : Nat) : (P.nestN g n).pw = P.pw ∧ (P.nestN g n).cls = P.cls ∧
    ∀ c, ((P.nestN g n).elemOf c).T = nest n (P.elemOf c).T := by
  induction n with
  | zero => exact ⟨rfl, rfl, fun _ => rfl⟩
  | succ n ih =>
    refine ⟨ih.1, ih.2.1, fun c => ?_⟩
    simp only [Prog.nestN, Prog.nest, Elem.nest, Opt.nest, ih.2.2 c]

theorem nestN_ok (hP : P.OK) (g : Nat → Nat → Nat → Bytes) (n : Nat) (hwf : ∀ c, (nest (n + 1) (P.elemOf c).T).WF P.pw)
    (hg : ∀ k < n, ∀ i m, (g k i m).length = (nest (k + 2) (P.elem i).T).size P.pw) : (P.nestN g n).OK := by
  induction n with
  | zero => exact hP
  | succ n ih =>
    have f := nestN_facts (P := P) g n
    refine nest_ok (ih (fun c => nest_wf_pred (hwf c)) fun k hk => hg k (by omega)) (g n) (fun c => ?_) fun i m => ?_
    · rw [f.2.2 c, f.1]; exact hwf c
    · simp only [Prog.elem]; rw [f.2.2, f.1, f.2.1]; exact hg n (by omega) i m

/-- what a constructor that throws leaves of the empty option object it worked on -/
def Prog.after_throw (P : Prog Val) (i : Nat) (k : Kind) (n : Nat) (o : Obj) : Obj :=
  if (P.cxx20 || !(P.elem i).trivMoveAssign) && !(P.elem i).scalar then
    ⟨wr o.bytes 0 (P.partial_ i k n (P.payload i o)), false⟩
  else o

theorem Prog.construct_throws {w : World} {i : Nat} {o : Obj} {src : Src Val} {v : Val}
    (ho : w.mem i = some o) (ha : (o.alive && !(P.elem i).trivDtor) = false) (hs : src.Still i)
    (hv : P.srcVal i src w = .ok v w) (ht : P.CtorThrows i src w.env.tick) :
    ∃ e, P.construct i src w = .throw ⟨upd w.mem i (some (P.after_throw i (P.kind i src) w.env.tick o)), e⟩ := by
  have hself : src.isSelf i = false := by
    cases src <;> simp only [Src.isSelf, Src.Still] at *
    simpa using hs.1
  have hsa : ∀ f n w, P.srcAfter f n src w = .ok () w := by
    intro f n w
    cases src with
    | opt j mv => simp only [Src.Still] at hs; cases hs.2; rfl
    | _ => rfl
  obtain ⟨h1, h2⟩ := ht
  simp only [Prog.construct, Prog.constructAt, Prog.after_throw]
  cases hp : (P.cxx20 || !(P.elem i).trivMoveAssign)
  · simp only [Bool.false_eq_true, if_false, Bool.false_and, bind_run, Prog.constructByAssign, obj_run ho, obind_ok, hv, h1]
    rw [upd_self ho]
    cases (P.elem i).trivDtor
    · simp only [Bool.false_eq_true, if_false, bind_run, userOp_run, obind_ok, h2, hsa, if_true, raise_run, obind_throw]
      exact ⟨_, rfl⟩
    · simp only [if_true, bind_run, userOp_run, obind_ok, h2, hsa, raise_run, obind_throw]
      exact ⟨_, rfl⟩
  · simp only [if_true, Bool.true_and, bind_run, Prog.constructInPlace, obj_run ho, obind_ok, ha, Bool.false_and,
      Bool.false_eq_true, if_false, hself, hv, h1, userOp_run, h2, hsa]
    cases (P.elem i).scalar
    · simp only [Bool.false_eq_true, if_false, Bool.not_false, if_true, bind_run]
      rw [setPayload_run (w := ⟨w.mem, w.env.use P (.ctor i (P.kind i src)) (.ctorFail i (P.kind i src))⟩) ho]
      simp only [obind_ok, raise_run, obind_throw]
      exact ⟨_, rfl⟩
    · simp only [if_true, Bool.not_true, Bool.false_eq_true, if_false, raise_run, obind_throw]
      rw [upd_self ho]
      exact ⟨_, rfl⟩

/-- whether the object left behind still satisfies the invariant, and what it looks like if not -/
theorem Prog.after_throw_spec (hP : P.OK) {w : World} {e : Env} {i n : Nat} {k : Kind} {o : Obj} (hw : P.Inv w) (ho : w.mem i = some o)
    (hr : ObjR P i o none) :
    (P.Inv ⟨upd w.mem i (some (P.after_throw i k n o)), e⟩ ↔ P.Survives i k n o.bytes) ∧
    (¬ P.Survives i k n o.bytes →
      P.hasValue i ⟨upd w.mem i (some (P.after_throw i k n o)), e⟩ = .ok true ⟨upd w.mem i (some (P.after_throw i k n o)), e⟩ ∧
      ((P.elem i).trivDtor = false → P.dtor i ⟨upd w.mem i (some (P.after_throw i k n o)), e⟩ = .ub)) := by
  have others : ObjR P i (P.after_throw i k n o) none → P.Inv ⟨upd w.mem i (some (P.after_throw i k n o)), e⟩ := by
    intro h k o' hk
    by_cases hki : k = i
    · subst hki
      simp only [upd_same] at hk
      cases hk
      refine ⟨h.len, h.flag, fun h1 => ?_, fun _ h1 => h.dead rfl h1⟩
      rw [h.hv] at h1; cases h1
    · simp only [upd_other _ _ hki] at hk
      exact hw k o' hk
  by_cases hc : (P.elem i).sent P.pw = true ∧ ((P.cxx20 || !(P.elem i).trivMoveAssign) && !(P.elem i).scalar) = true
  · obtain ⟨hs, hc⟩ := hc
    have hpl : P.payload i o = o.bytes := payload_sent (sent_iff.1 hs) hr.len
    have hlp : (P.partial_ i k n o.bytes).length = (P.elem i).T.size P.pw :=
      hP.partial_ i k n _ (by rw [← hpl]; exact payload_length (hP.wfi i) hr.len)
    have hb : P.after_throw i k n o = ⟨P.partial_ i k n o.bytes, false⟩ := by
      rw [after_throw, if_pos hc, hpl, wr_sent (sent_iff.1 hs) hr.len hlp]
    have hl : (P.partial_ i k n o.bytes).length = (Ty.option (P.elem i).T).size P.pw := by
      rw [option_size_avail (sent_iff.1 hs)]; exact hlp
    simp only [Bool.and_eq_true, Bool.not_eq_true'] at hc
    have hsur : P.Survives i k n o.bytes ↔ (P.elem i).T.hasValue P.pw (P.partial_ i k n o.bytes) = false :=
      ⟨fun h => h hs hc.1 hc.2, fun h _ _ _ => h⟩
    rw [hb] at others ⊢
    have hrun : ∀ h, (P.elem i).T.hasValue P.pw (P.partial_ i k n o.bytes) = h →
        P.hasValue i ⟨upd w.mem i (some ⟨P.partial_ i k n o.bytes, false⟩), e⟩ =
          .ok h ⟨upd w.mem i (some ⟨P.partial_ i k n o.bytes, false⟩), e⟩ := by
      intro h hh
      simp only [Prog.hasValue, bind_run, obj_run (w := ⟨upd w.mem i _, e⟩) (upd_same _ _ _), obind_ok, hs, Bool.not_true,
        Bool.false_and, Bool.false_eq_true, if_false, pure_run, hh]
    refine ⟨?_, fun hn => ?_⟩
    · rw [hsur]
      constructor
      · intro hi
        have := (hi i _ (upd_same _ _ _)).2.2.1
        cases hv : (P.elem i).T.hasValue P.pw (P.partial_ i k n o.bytes)
        · rfl
        · exact absurd (this hv).1 (by simp)
      · intro hv
        exact others (ObjR.empty hl hs hv)
    · rw [hsur, Bool.not_eq_false] at hn
      refine ⟨hrun _ hn, fun ht => ?_⟩
      simp only [Prog.dtor, ht, Bool.false_eq_true, if_false, bind_run, hrun _ hn, obind_ok, if_true, Prog.destroyT,
        obj_run (w := ⟨upd w.mem i _, e⟩) (upd_same _ _ _), bad_run, obind_ub]
  · have hsur : P.Survives i k n o.bytes := fun h1 h2 h3 => absurd ⟨h1, by rw [h2, h3]; rfl⟩ hc
    have hob : ObjR P i (P.after_throw i k n o) none := by
      by_cases h2 : ((P.cxx20 || !(P.elem i).trivMoveAssign) && !(P.elem i).scalar) = true
      · have hs : (P.elem i).sent P.pw = false := by
          cases h : (P.elem i).sent P.pw
          · rfl
          · exact absurd ⟨h, h2⟩ hc
        rw [after_throw, if_pos h2]
        have hlp : (P.partial_ i k n (P.payload i o)).length = (P.elem i).T.size P.pw :=
          hP.partial_ i k n _ (payload_length (hP.wfi i) hr.len)
        have hf := flag_wr (hP.wfi i) (sent_false_iff.1 hs) hr.len hlp
        refine ⟨wr0_length (hP.wfi i) hr.len (by omega), fun _ => ?_, ?_, fun v h => (by cases h), fun _ _ => rfl⟩
        · simp only [hf]; exact hr.flag hs
        · have := hr.hv
          rw [hasValue_flag (sent_false_iff.1 hs)] at this ⊢
          simp only [hf]; exact this
      · rw [after_throw, if_neg h2]; exact hr
    exact ⟨⟨fun _ => hsur, fun _ => others hob⟩, fun h => absurd hsur h⟩

/-- an empty option inside an option looks engaged from outside -/
theorem empty_inside_engaged {pw : Nat} {T : Ty} {bs : Bytes} (h : T.hasValue pw bs = false)
    (hm : ((Ty.option T).traits pw).maxLevel ≥ 1) : (Ty.option T).hasValue pw bs = true := by
  rw [Ty.hasValue, if_pos hm, option_traits_eq, optionTraits]
  rw [Ty.hasValue] at h
  by_cases hi : (T.traits pw).maxLevel ≥ 1
  · rw [if_pos hi] at h ⊢
    simp only [ne_eq, decide_not, Bool.not_eq_false', decide_eq_true_eq] at h
    simp only [availableOptionTraits, h]
    decide
  · rw [if_neg hi] at h ⊢
    simp only [ne_eq, decide_not, Bool.not_eq_false', decide_eq_true_eq] at h
    have : ld 8 (rd bs (T.size pw) 1) 0 = 0 := by
      rw [← h]; simp [ld, rd, List.take_take]
    simp only [unavailableOptionTraits, atField, boolTraits, this]
    decide

theorem leftOver_empty (hP : P.OK) {i n : Nat} {k : Kind} (hk : k ≠ .args) {old : Bytes}
    (ho : old.length = (Ty.option (P.elem i).T).size P.pw) (hT : P.ThrowSafeAt i k n) (ht : P.throwsAt n = true) :
    (P.elem i).T.hasValue P.pw (P.leftOver i k n old) = false := by
  obtain ⟨o, _, h2, h3⟩ := leftOver_base (n := n) hP hk ho
  rw [h3]
  by_cases hc : ((P.cxx20 || !(P.elem i).trivMoveAssign) && !(P.elem i).scalar) = true
  · rw [if_pos hc]
    have hlp : (P.partial_ i k n ((P.elem i).T.payload P.pw o.bytes)).length = (P.elem i).T.size P.pw :=
      hP.partial_ i k n _ (payload_length (hP.wfi i) h2.len)
    cases hs : (P.elem i).sent P.pw
    · have hf := flag_wr (hP.wfi i) (sent_false_iff.1 hs) h2.len hlp
      have := h2.hv
      rw [hasValue_flag (sent_false_iff.1 hs)] at this ⊢
      rw [hf]; exact this
    · have hpl : (P.elem i).T.payload P.pw o.bytes = o.bytes := payload_sent (sent_iff.1 hs) h2.len
      rw [hpl] at hlp ⊢
      rw [wr_sent (sent_iff.1 hs) h2.len hlp]
      simp only [Bool.and_eq_true, Bool.not_eq_true'] at hc
      exact hT _ hs hc.1 hc.2 ht (by rw [h2.len, option_size_avail (sent_iff.1 hs)]) h2.hv
  · rw [if_neg hc]; exact h2.hv

/-- the default constructor makes the same object whatever else exists -/
theorem ctorDefault_same (hP : P.OK) {i : Nat} {old : Bytes} (hg : ∀ n, P.garbage i n = old) {w w' : World}
    (h : w.mem i = none) (h' : w'.mem i = none) {o : Obj} (hr : P.ctorDefault i w = .ok () (w.put i o)) :
    P.ctorDefault i w' = .ok () (w'.put i o) := by
  have e : ∀ {u v : World} {i : Nat} {a b : Obj}, (Out.ok () (World.put u i a) : Out World Unit) = .ok () (u.put i b) →
      a = b := by
    intro u v i a b h
    simp only [World.put, Out.ok.injEq, true_and, World.mk.injEq, and_true] at h
    have := congrFun h i
    simp only [upd_same, Option.some.injEq] at this
    exact this
  have hgl := hP.garbage i 0
  rw [hg] at hgl
  cases hs : (P.elem i).sent P.pw
  · simp only [Prog.ctorDefault, bind_run, Prog.newObj_run h, Prog.newObj_run h', obind_ok, hs, Bool.false_eq_true, if_false,
      hg] at hr ⊢
    rw [Prog.setFlag_run (w := World.put _ _ _) (upd_same _ _ _)] at hr ⊢
    simp only [World.put, upd_upd] at hr ⊢
    rw [e (v := w) hr]
  · have hlen : (wr old 0 [0]).length = (Ty.option (P.elem i).T).size P.pw := wr0_length (hP.wfi i) hgl (hP.size _)
    obtain ⟨b, h1, h2, h3⟩ := setLevel0_sent hP.pw (hP.wfi i) (sent_iff.1 hs) hlen
    have key : ∀ u : World, u.mem i = none → P.ctorDefault i u = .ok () (u.put i ⟨b, false⟩) := by
      intro u hu
      simp only [Prog.ctorDefault, bind_run, Prog.newObj_run hu, obind_ok, hs, if_true, hg]
      rw [Prog.setPayload_run (w := World.put _ _ _) (upd_same _ _ _)]
      simp only [obind_ok, Prog.setLevel0, bind_run, World.put, upd_upd]
      rw [Prog.obj_run (w := ⟨upd u.mem i _, u.env⟩) (upd_same _ _ _)]
      simp only [obind_ok, h1, Prog.setObj_run, World.put, upd_upd]
      rw [bind_run, Prog.hasValue_run (w := ⟨upd u.mem i _, u.env⟩) (upd_same _ _ _) (ObjR.empty (P := P) h3 hs h2)]
      rfl
    rw [key w h] at hr
    rw [key w' h', e (v := w) hr]

end Opt
