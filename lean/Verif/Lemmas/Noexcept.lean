import Verif.Spec.Noexcept
import Verif.Lemmas.Sim

/-!
# Where exceptions come from
-/

namespace Opt

/-! ## No built-in `set_level` throws -/

theorem Traits.noTraits_set (bs : Bytes) (l : U64) : noTraits.setLevel bs l ≠ .throw := by simp [noTraits]

theorem verifyThen_throw {α : Type} {c : Bool} {k : Res α} (h : k ≠ .throw) : verifyThen c k ≠ .throw := by
  cases c <;> simp [h]

theorem Res.map_throw {α β : Type} {f : α → β} {r : Res α} (h : r ≠ .throw) : r.map f ≠ .throw := by
  cases r <;> simp_all

theorem atField_set {off n : Nat} {t : Traits} (h : ∀ bs l, t.setLevel bs l ≠ .throw) (bs : Bytes) (l : U64) :
    (atField off n t).setLevel bs l ≠ .throw := Res.map_throw (h _ _)

theorem sentinelSet_throw (vals : List Bytes) (i l : U64) : sentinelSet vals i l ≠ .throw := by
  induction vals generalizing i with
  | nil => simp [sentinelSet]
  | cons v vs ih =>
    unfold sentinelSet
    split
    · simp
    · cases vs with
      | nil => simp
      | cons => exact ih _

mutual
theorem Ty.set_ne_throw (pw : Nat) : (T : Ty) → T.SetNoexcept → ∀ bs l, (T.sizeTraits pw).2.setLevel bs l ≠ .throw
  | .plain .., _, _, _ => by simp [Ty.sizeTraits, noTraits]
  | .bool, _, _, _ => verifyThen_throw (by simp)
  | .refWrapper, _, _, _ => verifyThen_throw (by simp)
  | .pointer, _, bs, l => by
    unfold Ty.sizeTraits
    dsimp only
    split
    · exact verifyThen_throw (by simp)
    · split
      · exact verifyThen_throw (by simp)
      · exact Traits.noTraits_set bs l
  | .float64 s _, _, _, _ => by cases s <;> exact verifyThen_throw (by simp)
  | .float32 s, _, _, _ => by cases s <;> exact verifyThen_throw (by simp)
  | .polymorphic .., _, _, _ => verifyThen_throw (by simp)
  | .stringView _, _, _, _ => verifyThen_throw (by simp)
  | .uniquePtr, _, _, _ => verifyThen_throw (by simp)
  | .string lib, _, _, _ => by cases lib <;> exact verifyThen_throw (by simp)
  | .vector, _, _, _ => verifyThen_throw (by simp)
  | .memberPtr n _, _, bs, l => by
    unfold Ty.sizeTraits
    dsimp only
    split
    · exact verifyThen_throw (by simp)
    · split
      · exact verifyThen_throw (by simp)
      · exact Traits.noTraits_set bs l
  | .padding .., _, _, _ => verifyThen_throw (by simp)
  | .enumReflect .., _, _, _ => verifyThen_throw (by simp)
  | .enumBool, _, _, _ => by
    simp only [Ty.sizeTraits, enumBoolTraits]
    exact verifyThen_throw (by simp)
  | .enumSentinel .., _, _, _ => verifyThen_throw (by simp)
  | .enumStart .., _, _, _ => verifyThen_throw (by simp)
  | .enumStartEnd .., _, _, _ => verifyThen_throw (by simp)
  | .sentinel .., _, _, _ => sentinelSet_throw _ _ _
  | .sentinelOpt .., _, _, _ => verifyThen_throw (by simp)
  | .custom .., h, bs, l => h bs l
  | .pair _ _ _ a _ b, h, bs, l => by
    show (pairTraits _ _).setLevel bs l ≠ .throw
    unfold pairTraits
    split
    · exact atField_set (Ty.set_ne_throw pw a h.1) bs l
    · exact atField_set (Ty.set_ne_throw pw b h.2) bs l
  | .tuple _ _ fs, h, bs, l => by
    show (findMaxLevel (fs.traits pw)).setLevel bs l ≠ .throw
    unfold findMaxLevel
    split
    · exact Traits.noTraits_set bs l
    · cases hg : (fs.traits pw)[indexOfMax ((fs.traits pw).map (·.maxLevel))]? with
      | none => exact Traits.noTraits_set bs l
      | some t => exact Fields.set_ne_throw pw fs h t (List.mem_of_getElem? hg) bs l
  | .array a n, h, bs, l => by
    show (if n = 0 then noTraits else _).setLevel bs l ≠ .throw
    split
    · exact Traits.noTraits_set bs l
    · exact atField_set (Ty.set_ne_throw pw a h) bs l
  | .complex a, h, _, _ => verifyThen_throw (Res.map_throw (Ty.set_ne_throw pw a h _ _))
  | .member _ _ _ a, h, bs, l => atField_set (Ty.set_ne_throw pw a h) bs l
  | .enforce a, h, bs, l => Ty.set_ne_throw pw a h bs l
  | .option a, h, bs, l => by
    show (optionTraits _ _).setLevel bs l ≠ .throw
    unfold optionTraits
    split
    · exact Ty.set_ne_throw pw a h bs (l + 1)
    · exact atField_set (t := boolTraits) (fun _ _ => verifyThen_throw (by simp)) bs l
  | .optionRef, _, _, _ => by simp [Ty.sizeTraits, referenceOptionTraits]

theorem Fields.set_ne_throw (pw : Nat) : (fs : Fields) → fs.SetNoexcept →
    ∀ t ∈ fs.traits pw, ∀ bs l, t.setLevel bs l ≠ .throw
  | .nil, _, t, ht, _, _ => by simp [Fields.traits] at ht
  | .cons off T rest, h, t, ht, bs, l => by
    rw [Fields.traits] at ht
    rcases List.mem_cons.1 ht with rfl | ht
    · exact atField_set (Ty.set_ne_throw pw T h.1) bs l
    · exact Fields.set_ne_throw pw rest h.2 t ht bs l
end

/-! ## Rules -/

variable {α β Val : Type} {K : Event → Prop}

/-- the log only grows -/
def Grows (x : M World α) : Prop :=
  ∀ w, match x w with
    | .ok _ w' => ∃ evs, w'.env.log = w.env.log ++ evs
    | .throw w' => ∃ evs, w'.env.log = w.env.log ++ evs
    | _ => True

/-- the log only grows, and an exception needs an event in `K` -/
def Esc (K : Event → Prop) (x : M World α) : Prop :=
  ∀ w, match x w with
    | .ok _ w' => ∃ evs, w'.env.log = w.env.log ++ evs
    | .throw w' => ∃ evs, w'.env.log = w.env.log ++ evs ∧ ∃ e ∈ evs, K e
    | _ => True

theorem Esc.grows {x : M World α} (h : Esc K x) : Grows x := by
  intro w
  have := h w
  cases hx : x w with
  | ok a w' => rw [hx] at this; exact this
  | throw w' => rw [hx] at this; obtain ⟨evs, h1, _⟩ := this; exact ⟨evs, h1⟩
  | verify => trivial
  | ub => trivial

theorem Esc.escapes {x : M World α} (h : Esc K x) (w : World) : Escapes K w (x w) := by
  have := h w
  cases hx : x w with
  | throw w' => rw [hx] at this; exact this
  | _ => trivial

theorem Esc.mono {K' : Event → Prop} {x : M World α} (h : Esc K x) (hk : ∀ e, K e → K' e) : Esc K' x := by
  intro w
  have := h w
  cases hx : x w with
  | ok a w' => rw [hx] at this; exact this
  | throw w' => rw [hx] at this; obtain ⟨evs, h1, e, he, h2⟩ := this; exact ⟨evs, h1, e, he, hk e h2⟩
  | verify => trivial
  | ub => trivial

theorem Esc.pure (a : α) : Esc K (pure a : M World α) := fun _ => ⟨[], (List.append_nil _).symm⟩
theorem Esc.bad : Esc K (M.bad : M World α) := fun _ => trivial

theorem Esc.check (b : Bool) : Esc K (M.check b) := by
  intro w
  cases b
  · trivial
  · exact ⟨[], (List.append_nil _).symm⟩

theorem Grows.raise : Grows (M.raise : M World α) := fun _ => ⟨[], (List.append_nil _).symm⟩

theorem Esc.bind {x : M World α} {f : α → M World β} (h : Esc K x) (hf : ∀ a, Esc K (f a)) : Esc K (x >>= f) := by
  intro w
  have hx := h w
  show match M.seq x f w with | .ok _ w' => _ | .throw w' => _ | _ => _
  unfold M.seq
  cases hw : x w with
  | ok a w' =>
    rw [hw] at hx
    obtain ⟨e1, h1⟩ := hx
    have h2 := hf a w'
    dsimp only
    cases hfw : f a w' with
    | ok b w'' =>
      rw [hfw] at h2
      obtain ⟨e2, h2⟩ := h2
      exact ⟨e1 ++ e2, by rw [h2, h1, List.append_assoc]⟩
    | throw w'' =>
      rw [hfw] at h2
      obtain ⟨e2, h2, e, he, hk⟩ := h2
      exact ⟨e1 ++ e2, by rw [h2, h1, List.append_assoc], e, List.mem_append_right _ he, hk⟩
    | verify => trivial
    | ub => trivial
  | throw w' => rw [hw] at hx; exact hx
  | verify => trivial
  | ub => trivial

theorem Grows.bind {x : M World α} {f : α → M World β} (h : Grows x) (hf : ∀ a, Grows (f a)) : Grows (x >>= f) := by
  intro w
  have hx := h w
  show match M.seq x f w with | .ok _ w' => _ | .throw w' => _ | _ => _
  unfold M.seq
  cases hw : x w with
  | ok a w' =>
    rw [hw] at hx
    obtain ⟨e1, h1⟩ := hx
    have h2 := hf a w'
    dsimp only
    cases hfw : f a w' with
    | ok b w'' =>
      rw [hfw] at h2
      obtain ⟨e2, h2⟩ := h2
      exact ⟨e1 ++ e2, by rw [h2, h1, List.append_assoc]⟩
    | throw w'' =>
      rw [hfw] at h2
      obtain ⟨e2, h2⟩ := h2
      exact ⟨e1 ++ e2, by rw [h2, h1, List.append_assoc]⟩
    | verify => trivial
    | ub => trivial
  | throw w' => rw [hw] at hx; exact hx
  | verify => trivial
  | ub => trivial

theorem Esc.ite {c : Prop} [Decidable c] {x y : M World α} (hx : c → Esc K x) (hy : ¬ c → Esc K y) :
    Esc K (if c then x else y) := by
  split
  · exact hx ‹_›
  · exact hy ‹_›

theorem Grows.ite {c : Prop} [Decidable c] {x y : M World α} (hx : Grows x) (hy : Grows y) :
    Grows (if c then x else y) := by
  split
  · exact hx
  · exact hy

theorem Esc.onThrow {x : M World α} {h : M World Unit} (hx : Esc K x) (hh : Grows h) : Esc K (M.onThrow x h) := by
  intro w
  have h1 := hx w
  unfold M.onThrow
  cases hw : x w with
  | ok a w' => rw [hw] at h1; exact h1
  | throw w' =>
    rw [hw] at h1
    obtain ⟨e1, h1, e, he, hk⟩ := h1
    have h2 := hh w'
    dsimp only
    cases hc : h w' with
    | ok a w'' =>
      rw [hc] at h2
      obtain ⟨e2, h2⟩ := h2
      exact ⟨e1 ++ e2, by rw [h2, h1, List.append_assoc], e, List.mem_append_left _ he, hk⟩
    | throw w'' => trivial
    | verify => trivial
    | ub => trivial
  | verify => trivial
  | ub => trivial

namespace Prog

variable (P : Prog Val)

/-- a call of user code: after a failing call, which is in `K`, anything may escape -/
theorem esc_userOp {okE failE : Event} {f : Nat × Bool → M World α} (hk : K failE) (h1 : ∀ n, Grows (f (n, true)))
    (h2 : ∀ n, Esc K (f (n, false))) : Esc K (P.userOp okE failE >>= f) := by
  intro w
  show match f (w.env.tick, P.throwsAt w.env.tick) _ with | .ok _ w' => _ | .throw w' => _ | _ => _
  cases ht : P.throwsAt w.env.tick with
  | true =>
    have := h1 w.env.tick ⟨w.mem, ⟨w.env.tick + 1, w.env.log ++ [failE]⟩⟩
    simp only [if_true]
    cases hf : f (w.env.tick, true) ⟨w.mem, ⟨w.env.tick + 1, w.env.log ++ [failE]⟩⟩ with
    | ok a w' =>
      rw [hf] at this
      obtain ⟨e2, h2⟩ := this
      exact ⟨failE :: e2, by rw [h2]; simp⟩
    | throw w' =>
      rw [hf] at this
      obtain ⟨e2, h2⟩ := this
      exact ⟨failE :: e2, by rw [h2]; simp, failE, List.mem_cons_self, hk⟩
    | verify => trivial
    | ub => trivial
  | false =>
    have := h2 w.env.tick ⟨w.mem, ⟨w.env.tick + 1, w.env.log ++ [okE]⟩⟩
    simp only [Bool.false_eq_true, if_false]
    cases hf : f (w.env.tick, false) ⟨w.mem, ⟨w.env.tick + 1, w.env.log ++ [okE]⟩⟩ with
    | ok a w' =>
      rw [hf] at this
      obtain ⟨e2, h2⟩ := this
      exact ⟨okE :: e2, by rw [h2]; simp⟩
    | throw w' =>
      rw [hf] at this
      obtain ⟨e2, h2, e, he, hk'⟩ := this
      exact ⟨okE :: e2, by rw [h2]; simp, e, List.mem_cons_of_mem _ he, hk'⟩
    | verify => trivial
    | ub => trivial

theorem esc_obj (i : Nat) : Esc K (obj i) := by
  intro w
  unfold obj
  cases w.mem i with
  | none => trivial
  | some o => exact ⟨[], (List.append_nil _).symm⟩

theorem esc_setObj (i : Nat) (o : Obj) : Esc K (setObj i o) := fun _ => ⟨[], (List.append_nil _).symm⟩
theorem esc_delObj (i : Nat) : Esc K (delObj i) := fun _ => ⟨[], (List.append_nil _).symm⟩
theorem esc_now : Esc K now := fun _ => ⟨[], (List.append_nil _).symm⟩
theorem esc_note (e : Event) : Esc K (note e) := fun _ => ⟨[e], rfl⟩

theorem esc_newObj (i : Nat) : Esc K (P.newObj i) := by
  intro w
  unfold newObj
  cases w.mem i with
  | some o => trivial
  | none => exact ⟨[], (List.append_nil _).symm⟩

theorem esc_setPayload (i : Nat) (b : Bytes) (a : Bool) : Esc K (setPayload i b a) :=
  (esc_obj i).bind fun _ => esc_setObj _ _

theorem esc_setFlag (i : Nat) (b : Bool) : Esc K (P.setFlag i b) := (esc_obj i).bind fun _ => esc_setObj _ _

theorem esc_setLevel0 {i : Nat} (hs : (P.elem i).T.SetNoexcept) : Esc K (P.setLevel0 i) := by
  refine (esc_obj i).bind fun o => ?_
  have := Ty.set_ne_throw P.pw (P.elem i).T hs o.bytes 0
  show Esc K (match ((P.elem i).T.sizeTraits P.pw).2.setLevel o.bytes 0 with
    | .ok b => setObj i ⟨b, false⟩
    | .throw => M.raise
    | .verify => M.check false
    | .ub => M.bad)
  cases hr : ((P.elem i).T.sizeTraits P.pw).2.setLevel o.bytes 0 with
  | ok b => exact esc_setObj _ _
  | throw => exact absurd hr this
  | verify => exact Esc.check _
  | ub => exact Esc.bad

theorem esc_readT (j : Nat) : Esc K (P.readT j) :=
  (esc_obj j).bind fun _ => Esc.ite (fun _ => Esc.pure _) (fun _ => Esc.bad)

theorem esc_writeT (j n : Nat) (v : Val) : Esc K (P.writeT j n v) :=
  (esc_obj j).bind fun _ => Esc.ite (fun _ => esc_setPayload _ _ _) (fun _ => Esc.bad)

theorem esc_srcVal (i : Nat) (src : Src Val) : Esc K (P.srcVal i src) := by
  cases src
  case opt j mv => exact (P.esc_readT j).bind fun _ => Esc.pure _
  all_goals exact Esc.pure _

theorem esc_srcAfter (b : Bool) (n : Nat) (src : Src Val) : Esc K (P.srcAfter b n src) := by
  cases src
  case opt j mv =>
    cases mv
    · exact Esc.pure _
    · exact (P.esc_readT j).bind fun _ => P.esc_writeT _ _ _
  all_goals exact Esc.pure _

theorem esc_srcBytes (i : Nat) (v : Val) (old : Bytes) (src : Src Val) : Esc K (P.srcBytes i v old src) := by
  cases src
  case opt j mv => exact (esc_obj j).bind fun _ => Esc.pure _
  all_goals exact esc_now.bind fun _ => Esc.pure _

theorem esc_constructInPlace {i : Nat} {src : Src Val} (hk : K (.ctorFail i (P.kind i src))) :
    Esc K (P.constructInPlace i src) := by
  refine (esc_obj i).bind fun o => Esc.ite (fun _ => Esc.bad) fun _ => Esc.ite (fun _ => Esc.bad) fun _ => ?_
  refine (P.esc_srcVal i src).bind fun v => Esc.ite (fun _ => ?_) fun _ => ?_
  · exact (P.esc_srcBytes _ _ _ _).bind fun _ => esc_setPayload _ _ _
  · refine P.esc_userOp hk (fun n => ?_) (fun n => ?_)
    · show Grows (P.srcAfter true n src >>= fun _ =>
        if (P.elem i).scalar = true then M.raise
        else setPayload i (P.partial_ i (P.kind i src) n (P.payload i o)) false >>= fun _ => M.raise)
      exact (P.esc_srcAfter (K := fun _ => True) _ _ _).grows.bind fun _ =>
        Grows.ite Grows.raise ((esc_setPayload (K := fun _ => True) _ _ _).grows.bind fun _ => Grows.raise)
    · exact (P.esc_srcAfter _ _ _).bind fun _ => esc_setPayload _ _ _

theorem esc_constructByAssign {i : Nat} {src : Src Val} (hk : K (.ctorFail i (P.kind i src)))
    (hk' : K (.tmpCtor (P.kind i src) false)) : Esc K (P.constructByAssign i src) := by
  refine (esc_obj i).bind fun o => (P.esc_srcVal i src).bind fun v => Esc.ite (fun _ => ?_) fun _ => Esc.ite (fun _ => ?_) fun _ => ?_
  · exact (P.esc_srcBytes _ _ _ _).bind fun _ => esc_setPayload _ _ _
  · refine P.esc_userOp hk (fun n => ?_) (fun n => ?_)
    · exact (P.esc_srcAfter (K := fun _ => True) _ _ _).grows.bind fun _ => Grows.raise
    · exact (P.esc_srcAfter _ _ _).bind fun _ => esc_setPayload _ _ _
  · refine P.esc_userOp hk' (fun n => ?_) (fun n => ?_)
    · exact (P.esc_srcAfter (K := fun _ => True) _ _ _).grows.bind fun _ => Grows.raise
    · exact (P.esc_srcAfter _ _ _).bind fun _ => (esc_setPayload _ _ _).bind fun _ => esc_note _

theorem esc_constructAt {i : Nat} {src : Src Val} (hk : K (.ctorFail i (P.kind i src)))
    (hk' : K (.tmpCtor (P.kind i src) false)) : Esc K (P.constructAt i src) :=
  Esc.ite (fun _ => P.esc_constructInPlace hk) fun _ => P.esc_constructByAssign hk hk'

theorem esc_destroyT (i : Nat) : Esc K (P.destroyT i) :=
  (esc_obj i).bind fun _ => Esc.ite
    (fun _ => (esc_note _).bind fun _ => esc_now.bind fun _ => esc_setPayload _ _ _) fun _ => Esc.bad

theorem esc_assignT {i : Nat} {src : Src Val} (hk : K (.assign i (P.kind i src) false)) : Esc K (P.assignT i src) := by
  refine (esc_obj i).bind fun o => Esc.ite (fun _ => Esc.bad) fun _ => Esc.ite (fun _ => ?_) fun _ => ?_
  · exact (P.esc_srcVal i src).bind fun v => (P.esc_srcBytes _ _ _ _).bind fun _ => esc_setPayload _ _ _
  · refine (P.esc_readT i).bind fun old => (P.esc_srcVal i src).bind fun v => P.esc_userOp hk (fun n => ?_) (fun n => ?_)
    · exact (P.esc_srcAfter (K := fun _ => True) true n src).grows.bind fun _ =>
        (P.esc_writeT (K := fun _ => True) _ _ _).grows.bind fun _ => Grows.raise
    · refine Esc.ite (fun h => absurd h (by decide)) fun _ => Esc.ite (fun _ => ?_) fun _ => ?_
      · cases src
        case opt j mv _ _ => cases mv <;> exact P.esc_writeT _ _ _
        all_goals exact P.esc_writeT _ _ _
      · exact (P.esc_srcAfter _ _ _).bind fun _ => P.esc_writeT _ _ _

theorem esc_swapT {i j : Nat} (hk : K (.swap i j false)) : Esc K (P.swapT i j) := by
  refine (P.esc_readT i).bind fun vi => (P.esc_readT j).bind fun vj => P.esc_userOp hk (fun n => ?_) (fun n => ?_)
  · exact (P.esc_writeT (K := fun _ => True) _ _ _).grows.bind fun _ =>
      (P.esc_writeT (K := fun _ => True) _ _ _).grows.bind fun _ => Grows.raise
  · exact (P.esc_writeT _ _ _).bind fun _ => P.esc_writeT _ _ _

theorem esc_hasValue (i : Nat) : Esc K (P.hasValue i) :=
  (esc_obj i).bind fun _ => Esc.ite (fun _ => Esc.bad) fun _ => Esc.pure _

theorem esc_getCheck (i : Nat) : Esc K (P.getCheck i) := (P.esc_hasValue i).bind fun _ => Esc.check _

theorem esc_ctorDefault {i : Nat} (hs : (P.elem i).T.SetNoexcept) : Esc K (P.ctorDefault i) :=
  (P.esc_newObj i).bind fun _ => Esc.ite
    (fun _ => (esc_setPayload _ _ _).bind fun _ => (P.esc_setLevel0 hs).bind fun _ => (P.esc_hasValue i).bind fun _ =>
      Esc.check _)
    fun _ => P.esc_setFlag _ _

theorem esc_construct {i : Nat} {src : Src Val} (hk : K (.ctorFail i (P.kind i src)))
    (hk' : K (.tmpCtor (P.kind i src) false)) : Esc K (P.construct i src) :=
  (P.esc_constructAt hk hk').bind fun _ => Esc.ite (fun _ => (P.esc_hasValue i).bind fun _ => Esc.check _)
    fun _ => P.esc_setFlag _ _

theorem esc_reset {i : Nat} (hs : (P.elem i).T.SetNoexcept) : Esc K (P.reset i) := by
  have h0 : Esc K (P.setLevel0 i >>= fun _ => P.hasValue i >>= fun h => M.check (!h)) :=
    (P.esc_setLevel0 hs).bind fun _ => (P.esc_hasValue i).bind fun _ => Esc.check _
  refine Esc.ite (fun _ => Esc.ite (fun _ => h0) fun _ => P.esc_setFlag _ _) fun _ => ?_
  refine (P.esc_hasValue i).bind fun h => Esc.ite (fun _ => (P.esc_destroyT i).bind fun _ => ?_) fun _ => Esc.pure _
  exact Esc.ite (fun _ => h0) fun _ => P.esc_setFlag _ _

theorem esc_dtor (i : Nat) : Esc K (P.dtor i) :=
  Esc.ite (fun _ => (esc_obj i).bind fun _ => esc_delObj _) fun _ =>
    (P.esc_hasValue i).bind fun _ => Esc.ite (fun _ => (P.esc_destroyT i).bind fun _ => esc_delObj _) fun _ => esc_delObj _

theorem esc_copyBytesNew (i j : Nat) : Esc K (P.copyBytesNew i j) :=
  (esc_obj j).bind fun _ => (P.esc_newObj i).bind fun _ => esc_setObj _ _

theorem esc_copyBytes (i j : Nat) : Esc K (copyBytes i j) :=
  (esc_obj j).bind fun _ => (esc_obj i).bind fun _ => esc_setObj _ _

theorem esc_ctorManual {i j : Nat} {mv : Bool} (hs : (P.elem i).T.SetNoexcept)
    (hk : K (.ctorFail i (P.kind i (.opt j mv)))) (hk' : K (.tmpCtor (P.kind i (.opt j mv)) false)) :
    Esc K (P.ctorManual i j mv) := by
  refine (P.esc_ctorDefault hs).bind fun _ => Esc.onThrow ?_ (P.esc_dtor (K := fun _ => True) i).grows
  refine (P.esc_hasValue j).bind fun h => Esc.ite (fun _ => ?_) fun _ => Esc.pure _
  split
  · exact (Esc.pure ()).bind fun _ => P.esc_construct hk hk'
  · exact (P.esc_getCheck j).bind fun _ => P.esc_construct hk hk'

theorem esc_assignManual {i j : Nat} {mv : Bool} (hs : (P.elem i).T.SetNoexcept)
    (hk : K (.ctorFail i (P.kind i (.opt j mv)))) (hk' : K (.tmpCtor (P.kind i (.opt j mv)) false))
    (ha : K (.assign i (P.kind i (.opt j mv)) false)) : Esc K (P.assignManual i j mv) := by
  refine (P.esc_hasValue j).bind fun hj => Esc.ite (fun _ => ?_) fun _ => P.esc_reset hs
  refine (P.esc_hasValue i).bind fun hi => Esc.ite (fun _ => Esc.ite (fun _ => P.esc_assignT ha) fun _ => ?_) fun _ => ?_
  · exact (P.esc_getCheck j).bind fun _ => (P.esc_assignT ha).bind fun _ => P.esc_getCheck i
  · split
    · exact (Esc.pure ()).bind fun _ => P.esc_construct hk hk'
    · exact (P.esc_getCheck j).bind fun _ => P.esc_construct hk hk'

theorem esc_swap {i j : Nat} (hsi : (P.elem i).T.SetNoexcept) (hsj : (P.elem j).T.SetNoexcept)
    (hk : K (.swap i j false))
    (hi : K (.ctorFail i (P.kind i (.opt j true)))) (hi' : K (.tmpCtor (P.kind i (.opt j true)) false))
    (hj : K (.ctorFail j (P.kind j (.opt i true)))) (hj' : K (.tmpCtor (P.kind j (.opt i true)) false)) :
    Esc K (P.swap i j) := by
  refine (P.esc_hasValue i).bind fun a => (P.esc_hasValue j).bind fun b => Esc.ite (fun _ => Esc.pure _) fun _ =>
    Esc.ite (fun _ => P.esc_swapT hk) fun _ => Esc.ite (fun _ => ?_) fun _ => ?_
  · exact (P.esc_getCheck i).bind fun _ => (P.esc_construct hj hj').bind fun _ => P.esc_reset hsi
  · exact (P.esc_getCheck j).bind fun _ => (P.esc_construct hi hi').bind fun _ => P.esc_reset hsj

theorem esc_get (i : Nat) : Esc K (P.get i) := (P.esc_getCheck i).bind fun _ => P.esc_readT i

theorem esc_cmpNone (op : CmpOp) (i : Nat) : Esc K (P.cmpNone op i) := by
  cases op
  case eq => exact (P.esc_hasValue i).bind fun _ => Esc.pure _
  case le => exact (P.esc_hasValue i).bind fun _ => Esc.pure _
  case ne => exact P.esc_hasValue i
  case gt => exact P.esc_hasValue i
  all_goals exact Esc.pure _

theorem esc_noneCmp (op : CmpOp) (i : Nat) : Esc K (P.noneCmp op i) := by
  cases op
  case eq => exact (P.esc_hasValue i).bind fun _ => Esc.pure _
  case ge => exact (P.esc_hasValue i).bind fun _ => Esc.pure _
  case ne => exact P.esc_hasValue i
  case lt => exact P.esc_hasValue i
  all_goals exact Esc.pure _

theorem esc_hash {f : Val → U64} {i : Nat} (hk : K (.call0 false)) : Esc K (P.hash f i) := by
  refine (P.esc_hasValue i).bind fun h => Esc.ite (fun _ => ?_) fun _ => Esc.pure _
  exact (P.esc_get i).bind fun v => P.esc_userOp hk (fun _ => Grows.raise) fun _ => Esc.pure _

theorem esc_begin (i : Nat) : Esc K (P.begin_ i) :=
  (P.esc_hasValue i).bind fun _ => Esc.ite (fun _ => (P.esc_getCheck i).bind fun _ => Esc.pure _) fun _ => Esc.pure _

theorem esc_end (i : Nat) : Esc K (P.end_ i) :=
  (P.esc_hasValue i).bind fun _ => Esc.ite (fun _ => (P.esc_getCheck i).bind fun _ => Esc.pure _) fun _ => Esc.pure _

theorem esc_ptrOrNull (i : Nat) : Esc K (P.ptrOrNull i) :=
  (P.esc_hasValue i).bind fun _ => Esc.ite
    (fun _ => (P.esc_getCheck i).bind fun _ => (P.esc_readT i).bind fun _ => Esc.pure _) fun _ => Esc.pure _

end Prog

end Opt
