import Verif.Spec.Rep
import Verif.Lemmas.StdHarmless
import Verif.Lemmas.ReentrantHarmless

/-!
# The specifications do not look at the representation
-/

namespace Opt

variable {Val : Type}

/-- `P` with the representation of `Q`, and language mode `b` -/
def Prog.stored (P Q : Prog Val) (b : Bool) : Prog Val :=
  { P with
    pw := Q.pw, cxx20 := b, elemOf := fun c => { P.elemOf c with T := (Q.elemOf c).T, decode := (Q.elemOf c).decode },
    garbage := Q.garbage, build := Q.build, partial_ := Q.partial_, dead := Q.dead }

theorem Prog.Alike.eq {P Q : Prog Val} (h : P.Alike Q) : Q = P.stored Q Q.cxx20 := by
  obtain ⟨h1, h2, h3, h4, h5, h6, h7, h8, h9, h10, h11, h12⟩ := h
  obtain ⟨pw, cxx, cls, el, thr, g, b, pa, d, mo, se, br, co⟩ := Q
  simp only [Prog.stored, Prog.mk.injEq, true_and]
  refine ⟨(funext h1).symm, ?_, (funext h8).symm, ?_, ?_, ?_, ?_⟩
  · funext c
    have e2 := h2 c; have e3 := h3 c; have e4 := h4 c; have e5 := h5 c; have e6 := h6 c; have e7 := h7 c
    simp only at e2 e3 e4 e5 e6 e7
    rw [e2, e3, e4, e5, e6, e7]
  · exact funext fun f => funext fun i => funext fun n => funext fun v => (h9 f i n v).symm
  · exact funext fun i => funext fun n => funext fun v => (h10 i n v).symm
  · exact funext fun i => funext fun n => funext fun u => funext fun v => (h11 i n u v).symm
  · exact funext fun c => funext fun d => funext fun v => (h12 c d v).symm

theorem Prog.Alike.symm {P Q : Prog Val} (h : P.Alike Q) : Q.Alike P :=
  ⟨fun i => (h.cls i).symm, fun c => (h.dtor c).symm, fun c => (h.copyCtor c).symm, fun c => (h.copyAssign c).symm,
    fun c => (h.moveCtor c).symm, fun c => (h.moveAssign c).symm, fun c => (h.scalar c).symm, fun n => (h.throwsAt n).symm,
    fun f i n v => (h.moved f i n v).symm, fun i n v => (h.selfMoved i n v).symm, fun i n u v => (h.broken i n u v).symm,
    fun c d v => (h.conv c d v).symm⟩

namespace Spec

variable (P Q : Prog Val)

theorem zipElems_stored (is : List (Nat × Bool)) : zipElems (P.stored Q P.cxx20) is = zipElems P is := by
  induction is with
  | nil => rfl
  | cons x is ih => obtain ⟨i, mv⟩ := x; simp only [zipElems, ih]; rfl

theorem dropTmps_stored (is : List Nat) : dropTmps (P.stored Q P.cxx20) is = dropTmps P is := by
  induction is with
  | nil => rfl
  | cons x is ih => simp only [dropTmps, ih]; rfl

theorem unzipParts_stored (q : Parts Val) (i : Nat) (mv : Bool) (ks : List (Nat × Nat)) :
    unzipParts (P.stored Q P.cxx20) q i mv ks = unzipParts P q i mv ks := by
  induction ks with
  | nil => rfl
  | cons x ks ih => obtain ⟨k, r⟩ := x; simp only [unzipParts, ih]; rfl

theorem moveAll_stored (ks : List (Nat × Nat)) : moveAll (P.stored Q P.cxx20) ks = moveAll P ks := by
  induction ks with
  | nil => rfl
  | cons x ks ih => obtain ⟨k, r⟩ := x; simp only [moveAll, ih]; rfl

theorem destroyAll_stored (is : List Nat) : destroyAll (P.stored Q P.cxx20) is = destroyAll P is := by
  induction is with
  | nil => rfl
  | cons x is ih => simp only [destroyAll, ih]; rfl

theorem unzipNew_stored (q : Parts Val) (i : Nat) (mv : Bool) (rs : List Nat) :
    unzipNew (P.stored Q P.cxx20) q i mv rs = unzipNew P q i mv rs := by
  simp only [unzipNew, unzipParts_stored]

theorem runOp_stored (op : Op Val) : runOp (P.stored Q P.cxx20) op = runOp P op := by
  cases op with
  | zip is r g =>
    simp only [runOp, zip, zipElems_stored, dropTmps_stored]
    rfl
  | unzipArray q i mv rs => simp only [runOp, unzipNew_stored]
  | unzipTuple q i mv ts ms => simp only [runOp, unzipVia, unzipNew_stored, moveAll_stored, destroyAll_stored]
  | _ => rfl

theorem run_stored (ops : List (Op Val)) : run (P.stored Q P.cxx20) ops = run P ops := by
  induction ops with
  | nil => rfl
  | cons op ops ih => simp only [run, ih, runOp_stored]

mutual
theorem runCode_stored : ∀ {t : Want} (c : Code Val t), runCode (P.stored Q P.cxx20) c = runCode P c
  | _, .ret x => by simp only [runCode]
  | _, .fail => by simp only [runCode]
  | _, .op o k => by
    simp only [runCode, runOp_stored]
    exact congrArg _ (funext fun r => runCode_stored (k r))
  | _, .call c k => by
    simp only [runCode, runCOp_stored c]
    exact congrArg _ (funext fun r => runCode_stored (k r))
  | _, .look i k => by
    simp only [runCode]
    exact congrArg _ (funext fun r => runCode_stored (k r))
  | _, .write i v k => by simp only [runCode, runCode_stored k]
theorem runCOp_stored : ∀ (c : COp Val), runCOp (P.stored Q P.cxx20) c = runCOp P c
  | .takeIf i r f => by
    have h := fun v => runCode_stored (f v)
    simp only [runCOp, h]; rfl
  | .hasValueAnd i f => by
    have h := fun v => runCode_stored (f v)
    simp only [runCOp, h]; rfl
  | .inspect i f => by
    have h := fun v => runCode_stored (f v)
    simp only [runCOp, h]; rfl
  | .forEach i f => by
    have h := fun v => runCode_stored (f v)
    simp only [runCOp, h]; rfl
  | .mapOr i d f => by
    have h := fun v => runCode_stored (f v)
    simp only [runCOp, h]; rfl
  | .mapOrElse i d f => by
    have h := fun v => runCode_stored (f v)
    have h' := runCode_stored d
    simp only [runCOp, h, h']; rfl
  | .map i r f => by
    have h := fun v => runCode_stored (f v)
    simp only [runCOp, h]; rfl
  | .andThen i r f => by
    have h := fun v => runCode_stored (f v)
    simp only [runCOp, h]; rfl
  | .orElse i r mv d => by
    have h' := runCode_stored d
    simp only [runCOp, h']; rfl
  | .filter i r mv f => by
    have h := fun v => runCode_stored (f v)
    simp only [runCOp, h]; rfl
  | .zipWith is r f => by
    have h := fun v => runCode_stored (f v)
    simp only [runCOp, h]; rfl
end

end Spec

mutual
theorem Code.allowed_stored (P Q : Prog Val) : ∀ {t : Want} (c : Code Val t) (a : AState Val),
    c.Allowed (P.stored Q P.cxx20) a = c.Allowed P a
  | _, .ret _, _ => by simp only [Code.Allowed]
  | _, .fail, _ => by simp only [Code.Allowed]
  | _, .op o k, a => by
    have h := fun r => Code.allowed_stored P Q (k r)
    simp only [Code.Allowed, h, Spec.runOp_stored]
  | _, .call c k, a => by
    have h := fun r => Code.allowed_stored P Q (k r)
    have h' := COp.allowed_stored P Q c
    simp only [Code.Allowed, h, h', Spec.runCOp_stored]
  | _, .look i k, a => by
    have h := fun r => Code.allowed_stored P Q (k r)
    simp only [Code.Allowed, h]
  | _, .write i v k, a => by
    have h := Code.allowed_stored P Q k
    simp only [Code.Allowed, h]
theorem COp.allowed_stored (P Q : Prog Val) : ∀ (c : COp Val) (a : AState Val),
    c.Allowed (P.stored Q P.cxx20) a = c.Allowed P a
  | .takeIf i r f, a => by
    have h := fun v => Code.allowed_stored P Q (f v)
    simp only [COp.Allowed, h, Spec.runCode_stored]
  | .hasValueAnd i f, a => by
    have h := fun v => Code.allowed_stored P Q (f v)
    simp only [COp.Allowed, h, Spec.runCode_stored]
  | .inspect i f, a => by
    have h := fun v => Code.allowed_stored P Q (f v)
    simp only [COp.Allowed, h, Spec.runCode_stored]
  | .forEach i f, a => by
    have h := fun v => Code.allowed_stored P Q (f v)
    simp only [COp.Allowed, h, Spec.runCode_stored]
  | .mapOr i d f, a => by
    have h := fun v => Code.allowed_stored P Q (f v)
    simp only [COp.Allowed, h, Spec.runCode_stored]
  | .mapOrElse i d f, a => by
    have h := fun v => Code.allowed_stored P Q (f v)
    have h' := Code.allowed_stored P Q d
    simp only [COp.Allowed, h, h', Spec.runCode_stored]
  | .map i r f, a => by
    have h := fun v => Code.allowed_stored P Q (f v)
    simp only [COp.Allowed, h, Spec.runCode_stored]
  | .andThen i r f, a => by
    have h := fun v => Code.allowed_stored P Q (f v)
    simp only [COp.Allowed, h, Spec.runCode_stored]
  | .orElse i r mv d, a => by
    have h' := Code.allowed_stored P Q d
    simp only [COp.Allowed, h', Spec.runCode_stored]
  | .filter i r mv f, a => by
    have h := fun v => Code.allowed_stored P Q (f v)
    simp only [COp.Allowed, h, Spec.runCode_stored]
  | .zipWith is r f, a => by
    have h := fun v => Code.allowed_stored P Q (f v)
    simp only [COp.Allowed, h, Spec.runCode_stored]
end

mutual
theorem Code.each_all {P : Prog Val} {H : Op Val → AState Val → Prop} (hH : ∀ o a, H o a) : ∀ {t : Want} (c : Code Val t)
    (a : AState Val), c.Each P H a
  | _, .ret _, _ => by simp only [Code.Each]
  | _, .fail, _ => by simp only [Code.Each]
  | _, .op o k, a => by
    simp only [Code.Each]
    exact ⟨hH _ _, Spec.then_all fun r a' => Code.each_all hH (k r) a'⟩
  | _, .call c k, a => by
    simp only [Code.Each]
    exact ⟨COp.each_all hH c a, Spec.then_all fun r a' => Code.each_all hH (k r) a'⟩
  | _, .look i k, a => by
    simp only [Code.Each]
    exact fun v _ => Code.each_all hH (k v) a
  | _, .write i v k, a => by
    simp only [Code.Each]
    exact Code.each_all hH k _
theorem COp.each_all {P : Prog Val} {H : Op Val → AState Val → Prop} (hH : ∀ o a, H o a) : ∀ (c : COp Val)
    (a : AState Val), c.Each P H a
  | .takeIf i r f, a => by
    simp only [COp.Each]
    exact fun v _ => ⟨Code.each_all hH (f v) _, Spec.then_all fun _ _ _ => hH _ _⟩
  | .hasValueAnd i f, a => by
    simp only [COp.Each]
    exact fun v _ => Code.each_all hH (f v) _
  | .inspect i f, a => by
    simp only [COp.Each]
    exact fun v _ => Code.each_all hH (f v) _
  | .forEach i f, a => by
    simp only [COp.Each]
    exact fun v _ => Code.each_all hH (f v) _
  | .mapOr i d f, a => by
    simp only [COp.Each]
    exact fun v _ => Code.each_all hH (f v) _
  | .mapOrElse i d f, a => by
    simp only [COp.Each]
    exact ⟨fun v _ => Code.each_all hH (f v) _, fun _ => Code.each_all hH d _⟩
  | .map i r f, a => by
    simp only [COp.Each]
    exact fun v _ => Code.each_all hH (f v) _
  | .andThen i r f, a => by
    simp only [COp.Each]
    exact fun v _ => Code.each_all hH (f v) _
  | .orElse i r mv d, a => by
    simp only [COp.Each]
    exact ⟨fun _ _ => hH _ _, fun _ => Code.each_all hH d _⟩
  | .filter i r mv f, a => by
    simp only [COp.Each]
    exact fun v _ => Code.each_all hH (f v) _
  | .zipWith is r f, a => by
    simp only [COp.Each]
    exact fun v _ => Code.each_all hH (f v) _
end

/-- the standard machine does not even look at the language mode -/
theorem Std.runOp_stored (P Q : Prog Val) (b : Bool) (op : Op Val) : Std.runOp (P.stored Q b) 0 op = Std.runOp P 0 op := by
  cases op <;> rfl

theorem Std.run_stored (P Q : Prog Val) (b : Bool) (ops : List (Op Val)) : Std.run (P.stored Q b) 0 ops = Std.run P 0 ops := by
  induction ops with
  | nil => rfl
  | cons op ops ih => simp only [Std.run, ih, Std.runOp_stored]

namespace Prog.Alike

variable {P Q : Prog Val} (h : P.Alike Q) (hm : P.cxx20 = Q.cxx20)

include h hm

theorem runOp : Spec.runOp Q = Spec.runOp P := by
  funext op
  rw [h.eq, ← hm]
  exact Spec.runOp_stored P Q op

theorem run : Spec.run Q = Spec.run P := by
  funext ops
  rw [h.eq, ← hm]
  exact Spec.run_stored P Q ops

theorem runCode {t : Want} (c : Code Val t) : Spec.runCode Q c = Spec.runCode P c := by
  rw [h.eq, ← hm]
  exact Spec.runCode_stored P Q c

theorem runCOp (c : COp Val) : Spec.runCOp Q c = Spec.runCOp P c := by
  rw [h.eq, ← hm]
  exact Spec.runCOp_stored P Q c

theorem allAllowed : ∀ {ops : List (Op Val)} {a : AState Val}, Op.AllAllowed P ops a → Op.AllAllowed Q ops a
  | [], _, _ => trivial
  | op :: ops, a, ⟨h1, h2⟩ => by
    refine ⟨h1, ?_⟩
    rw [h.runOp hm]
    revert h2
    cases Prog.catch_ (Spec.runOp P op) a with
    | ok _ a' => exact allAllowed
    | _ => exact id

theorem codeAllowed {t : Want} {c : Code Val t} {a : AState Val} (hc : c.Allowed P a) : c.Allowed Q a := by
  rw [h.eq, ← hm, Code.allowed_stored]
  exact hc

omit hm in
theorem std : Std.run Q 0 = Std.run P 0 := by
  funext ops
  rw [h.eq]
  exact Std.run_stored P Q _ ops

end Prog.Alike

end Opt
