import Verif.Lemmas.Nested
import Verif.Model.NestedOps
import Verif.Lemmas.MachineRun
import Verif.Spec.View
import Verif.Spec.ProgOK

namespace Opt

theorem destroyTy_leaf {pw : Nat} {L : Leaf} {T : Ty} (hT : T.isOption = false) (bs : Bytes) :
    destroyTy pw L T bs = if L.trivDtor then ([], bs) else ([bs], L.dead bs) := by
  cases T <;> first | rfl | (simp only [Ty.isOption] at hT; exact absurd hT (by decide))

theorem destroyTy_nest {pw : Nat} {L : Leaf} {T : Ty} (hT : T.isOption = false) :
    ∀ (n : Nat) (bs : Bytes), (destroyTy pw L (nest n T) bs).1 =
      if engagedDepth pw n T bs = n ∧ L.trivDtor = false then [innermost pw n T bs] else []
  | 0, bs => by
    rw [nest, destroyTy_leaf hT]
    cases h : L.trivDtor <;> simp [engagedDepth, innermost]
  | n + 1, bs => by
    rw [nest, destroyTy, engagedDepth, innermost]
    cases h : L.trivDtor
    · by_cases he : (nest n T).hasValue pw bs = true
      · have ih := destroyTy_nest (L := L) (pw := pw) hT n ((nest n T).payload pw bs)
        have e : (1 + engagedDepth pw n T ((nest n T).payload pw bs) = n + 1) ↔
          (engagedDepth pw n T ((nest n T).payload pw bs) = n) := by omega
        simp only [he, if_true, Bool.false_eq_true, if_false, e, and_true]
        rw [ih, h]; simp only [and_true]
      · simp only [he, if_false, Bool.false_eq_true]
        rw [if_neg (by omega)]
    · simp

theorem destroyTy_length {pw : Nat} {L : Leaf} {T : Ty} (hT : T.isOption = false)
    (hd : ∀ b : Bytes, b.length = T.size pw → (L.dead b).length = T.size pw) :
    ∀ (n : Nat) (bs : Bytes), (nest n T).WF pw → bs.length = (nest n T).size pw →
      (destroyTy pw L (nest n T) bs).2.length = (nest n T).size pw
  | 0, bs, _, hb => by
    rw [nest, destroyTy_leaf hT]
    cases h : L.trivDtor
    · exact hd bs hb
    · exact hb
  | n + 1, bs, hwf, hb => by
    rw [nest, destroyTy]
    split
    · exact hb
    · split
      · have ih := destroyTy_length (L := L) hT hd n ((nest n T).payload pw bs) (nest_wf_pred hwf)
          (payload_length hwf hb)
        simp only
        rw [wr_length (by rw [ih, hb]; have := option_size_ge hwf; simp only [nest]; omega)]
        exact hb
      · exact hb

/-- emptying storage of the right size, whatever it contains -/
theorem storeNone_check {pw : Nat} (hpw : pw = 32 ∨ pw = 64) {a : Ty} (hwf : (Ty.option a).WF pw) {g : Bytes}
    (hg : g.length = (Ty.option a).size pw) {α : Type} (x : α) :
    ∃ bs, ((a.storeNone pw g).bind fun b =>
        verifyThen ((a.traits pw).maxLevel = 0 || !a.hasValue pw b) (.ok (x, b))) = .ok (x, bs) ∧
      a.hasValue pw bs = false ∧ bs.length = (Ty.option a).size pw ∧ (Ty.option a).Valid pw bs := by
  obtain ⟨bs, h1, h2, h3, h4⟩ := storeNone_spec hpw hwf hg
  refine ⟨bs, ?_, h2, h3, h4⟩
  simp only [h1, Res.bind, h2, Bool.not_false, Bool.or_true, verifyThen_true]

theorem engagedDepth_zero {pw n : Nat} {T : Ty} {bs : Bytes} (h : (nest n T).hasValue pw bs = false) :
    engagedDepth pw (n + 1) T bs = 0 := by simp [engagedDepth, h]

theorem resetTy_nest {pw : Nat} (hpw : pw = 32 ∨ pw = 64) {L : Leaf} {T : Ty} (hT : T.isOption = false)
    (hd : ∀ b : Bytes, b.length = T.size pw → (L.dead b).length = T.size pw) (n : Nat) (bs : Bytes)
    (hwf : (nest (n + 1) T).WF pw) (hv : (nest (n + 1) T).Valid pw bs) :
    ∃ bs', resetTy pw L (nest n T) bs =
        .ok (if engagedDepth pw (n + 1) T bs = n + 1 ∧ L.trivDtor = false then [innermost pw (n + 1) T bs] else [], bs') ∧
      (nest (n + 1) T).Valid pw bs' ∧ engagedDepth pw (n + 1) T bs' = 0 := by
  have hlen : bs.length = (Ty.option (nest n T)).size pw := (Ty.lawOK hpw _ hwf).size_eq bs hv
  rw [resetTy]
  cases h : L.trivDtor
  · by_cases he : (nest n T).hasValue pw bs = true
    · simp only [he, Bool.false_eq_true, if_false, if_true]
      have hl := destroyTy_length (L := L) hT hd n ((nest n T).payload pw bs) (nest_wf_pred hwf) (payload_length hwf hlen)
      obtain ⟨bs', h1, h2, h3, h4⟩ := storeNone_check hpw hwf
        (g := wr bs 0 (destroyTy pw L (nest n T) ((nest n T).payload pw bs)).2)
        (by rw [wr_length (by rw [hl, hlen]; have := option_size_ge hwf; omega)]; exact hlen)
        (destroyTy pw L (nest n T) ((nest n T).payload pw bs)).1
      refine ⟨bs', ?_, h4, engagedDepth_zero h2⟩
      rw [h1, destroyTy_nest hT, engagedDepth, innermost, if_pos he]
      have e : (1 + engagedDepth pw n T ((nest n T).payload pw bs) = n + 1) ↔
          (engagedDepth pw n T ((nest n T).payload pw bs) = n) := by omega
      simp only [h, e]
    · have he' : (nest n T).hasValue pw bs = false := by simpa using he
      simp only [he', Bool.false_eq_true, if_false]
      refine ⟨bs, ?_, hv, engagedDepth_zero he'⟩
      rw [engagedDepth_zero he', if_neg (by omega)]
  · simp only [if_true, Bool.true_eq_false, and_false, if_false]
    obtain ⟨bs', h1, h2, h3, h4⟩ := storeNone_check hpw hwf hlen ([] : List Bytes)
    exact ⟨bs', h1, h4, engagedDepth_zero h2⟩

theorem resetTyAt_nest {pw : Nat} (hpw : pw = 32 ∨ pw = 64) {L : Leaf} {T : Ty} (hT : T.isOption = false)
    (hd : ∀ b : Bytes, b.length = T.size pw → (L.dead b).length = T.size pw) :
    ∀ (n k : Nat) (bs : Bytes), k < n → (nest n T).WF pw → (nest n T).Valid pw bs → k ≤ engagedDepth pw n T bs →
    ∃ bs', resetTyAt pw L k (nest n T) bs =
        .ok (if engagedDepth pw n T bs = n ∧ L.trivDtor = false then [innermost pw n T bs] else [], bs') ∧
      (nest n T).Valid pw bs' ∧ engagedDepth pw n T bs' = k
  | 0, _, _, hk, _, _, _ => by omega
  | n + 1, 0, bs, _, hwf, hv, _ => by
    rw [nest, resetTyAt]; exact resetTy_nest hpw hT hd n bs hwf hv
  | n + 1, k + 1, bs, hk, hwf, hv, he => by
    by_cases hh : (nest n T).hasValue pw bs = true
    · have hp := payload_valid hv hh
      rw [engagedDepth, if_pos hh] at he
      obtain ⟨b, h1, h2, h3⟩ := resetTyAt_nest hpw hT hd n k _ (by omega) (nest_wf_pred hwf) hp (by omega)
      have hin := inPlace_spec hpw hwf hv hh h2
      refine ⟨wr bs 0 b, ?_, hin.2.2, ?_⟩
      · rw [nest, resetTyAt, hh, verifyThen_true, h1, engagedDepth, innermost, if_pos hh]
        have e : (1 + engagedDepth pw n T ((nest n T).payload pw bs) = n + 1) ↔
          (engagedDepth pw n T ((nest n T).payload pw bs) = n) := by omega
        simp only [Res.map, e]
      · rw [engagedDepth, if_pos hin.1, hin.2.1, h3]; omega
    · rw [engagedDepth, if_neg hh] at he; omega

theorem nest_isOption {T : Ty} (hT : T.isOption = false) : ∀ n, (nest n T).isOption = decide (1 ≤ n)
  | 0 => by simp [nest, hT]
  | n + 1 => by simp [nest, Ty.isOption]

theorem flattenRef_nest {pw p : Nat} {T : Ty} (hT : T.isOption = false) : ∀ (n : Nat) (bs : Bytes),
    flattenRef pw p (nest (n + 1) T) bs = .ok (if engagedDepth pw (n + 1) T bs = n + 1 then some p else none)
  | 0, bs => by
    rw [nest, flattenRef, engagedDepth]
    by_cases h : (nest 0 T).hasValue pw bs = true
    · rw [if_pos h, if_pos h, h]
      have : (nest 0 T).isOption = false := hT
      simp [this, engagedDepth]
    · rw [if_neg h, if_neg h]; simp
  | n + 1, bs => by
    rw [nest, flattenRef, engagedDepth]
    by_cases h : (nest (n + 1) T).hasValue pw bs = true
    · rw [if_pos h, if_pos h, h, verifyThen_true, nest_isOption hT]
      simp only [Nat.le_add_left, decide_true, if_true]
      rw [flattenRef_nest hT n]
      have e : (1 + engagedDepth pw (n + 1) T ((nest (n + 1) T).payload pw bs) = n + 1 + 1) ↔
        (engagedDepth pw (n + 1) T ((nest (n + 1) T).payload pw bs) = n + 1) := by omega
      simp only [e]
    · rw [if_neg h, if_neg h, if_neg (by omega)]

theorem nest_optionRef_isOption : ∀ n, (nest n Ty.optionRef).isOption = true
  | 0 => rfl
  | _ + 1 => rfl

theorem flattenRef_nest_ref {pw p : Nat} : ∀ (n : Nat) (bs : Bytes),
    flattenRef pw p (nest n .optionRef) bs =
      .ok (if engagedDepth pw n .optionRef bs = n ∧ ld pw (innermost pw n .optionRef bs) 0 ≠ 0
        then some (ld pw (innermost pw n .optionRef bs) 0).toNat else none)
  | 0, bs => by simp [nest, flattenRef, engagedDepth, innermost]
  | n + 1, bs => by
    rw [nest, flattenRef, engagedDepth, innermost]
    by_cases h : (nest n .optionRef).hasValue pw bs = true
    · rw [if_pos h, if_pos h, h, verifyThen_true, nest_optionRef_isOption, if_pos rfl, flattenRef_nest_ref n]
      have e : (1 + engagedDepth pw n .optionRef ((nest n .optionRef).payload pw bs) = n + 1) ↔
        (engagedDepth pw n .optionRef ((nest n .optionRef).payload pw bs) = n) := by omega
      simp only [e]
    · rw [if_neg h, if_neg h, if_neg (by omega)]

variable {Val : Type} {P : Prog Val} {w : World} {r : Nat}

theorem flattenMove_engaged (hpw : P.pw = 32 ∨ P.pw = 64) {mvd : Bytes → Bytes} {T : Ty} (hT : T.isOption = false)
    (hm : ∀ b, T.Valid P.pw b → T.Valid P.pw (mvd b)) :
    ∀ (n : Nat) (bs : Bytes), (nest (n + 1) T).WF P.pw → (nest (n + 1) T).Valid P.pw bs →
      engagedDepth P.pw (n + 1) T bs = n + 1 →
      ∃ bs', (∀ w, P.flattenMove r mvd (nest (n + 1) T) bs w =
          (P.ctorValue r (.move ((P.elem r).decode (innermost P.pw (n + 1) T bs))) >>= fun _ => pure bs') w) ∧
        (nest (n + 1) T).Valid P.pw bs' ∧ engagedDepth P.pw (n + 1) T bs' = n + 1 ∧
        innermost P.pw (n + 1) T bs' =
          if (P.elem r).trivMoveCtor then innermost P.pw (n + 1) T bs else mvd (innermost P.pw (n + 1) T bs)
  | 0, bs, hwf, hv, hd => by
    have h : (nest 0 T).hasValue P.pw bs = true := by
      rw [engagedDepth] at hd; split at hd
      · assumption
      · omega
    have hp := payload_valid hv h
    have hq : (nest 0 T).Valid P.pw (if (P.elem r).trivMoveCtor then (nest 0 T).payload P.pw bs
        else mvd ((nest 0 T).payload P.pw bs)) := by
      split
      · exact hp
      · exact hm _ hp
    have hin := inPlace_spec hpw hwf hv h hq
    refine ⟨_, fun w => ?_, hin.2.2, ?_, ?_⟩
    · show P.flattenMove r mvd (.option (nest 0 T)) bs w = _
      rw [Prog.flattenMove, if_pos h]
      have hT' : (nest 0 T).isOption = false := hT
      simp only [bind_run, M.check, h, if_true, obind_ok, hT', Bool.false_eq_true, if_false, innermost]
      cases P.ctorValue r (.move ((P.elem r).decode ((nest 0 T).payload P.pw bs))) w <;> rfl
    · rw [engagedDepth, if_pos hin.1]; rfl
    · simp only [innermost]; exact hin.2.1
  | n + 1, bs, hwf, hv, hd => by
    have h : (nest (n + 1) T).hasValue P.pw bs = true := by
      rw [engagedDepth] at hd; split at hd
      · assumption
      · omega
    have hp := payload_valid hv h
    rw [engagedDepth, if_pos h] at hd
    obtain ⟨b, h1, h2, h3, h4⟩ := flattenMove_engaged hpw hT hm n _ (nest_wf_pred hwf) hp (by omega)
    have hin := inPlace_spec hpw hwf hv h h2
    refine ⟨wr bs 0 b, fun w => ?_, hin.2.2, ?_, ?_⟩
    · rw [nest, Prog.flattenMove, if_pos h]
      simp only [bind_run, M.check, h, if_true, obind_ok, nest_isOption hT, Nat.le_add_left, decide_true, h1]
      rw [show innermost P.pw (n + 1 + 1) T bs = innermost P.pw (n + 1) T ((nest (n + 1) T).payload P.pw bs) from rfl]
      cases P.ctorValue r (.move ((P.elem r).decode (innermost P.pw (n + 1) T ((nest (n + 1) T).payload P.pw bs)))) w <;> rfl
    · rw [engagedDepth, if_pos hin.1, hin.2.1, h3]; omega
    · rw [innermost, hin.2.1, h4]; rfl

theorem flattenMove_empty {mvd : Bytes → Bytes} {T : Ty} (hT : T.isOption = false) :
    ∀ (n : Nat) (bs : Bytes), bs.length = (nest (n + 1) T).size P.pw → (nest (n + 1) T).WF P.pw →
      engagedDepth P.pw (n + 1) T bs ≠ n + 1 → ∀ w,
      P.flattenMove r mvd (nest (n + 1) T) bs w = (P.ctorDefault r >>= fun _ => pure bs) w
  | 0, bs, hl, hwf, hd, w => by
    have h : ¬ (nest 0 T).hasValue P.pw bs = true := by
      intro h; rw [engagedDepth, if_pos h] at hd; exact hd rfl
    rw [nest, Prog.flattenMove, if_neg h]
  | n + 1, bs, hl, hwf, hd, w => by
    rw [engagedDepth] at hd
    rw [nest, Prog.flattenMove]
    by_cases h : (nest (n + 1) T).hasValue P.pw bs = true
    · rw [if_pos h] at hd
      have ih := flattenMove_empty (mvd := mvd) hT n ((nest (n + 1) T).payload P.pw bs) (payload_length hwf hl)
        (nest_wf_pred hwf) (by omega)
      rw [if_pos h]
      simp only [bind_run, M.check, h, if_true, obind_ok, nest_isOption hT, Nat.le_add_left, decide_true, ih]
      have hr : wr bs 0 ((nest (n + 1) T).payload P.pw bs) = bs :=
        wr_rd_self (by have := option_size_ge hwf; rw [hl]; simp only [nest] at *; omega)
      cases P.ctorDefault r w with
      | ok a w' => simp only [obind_ok, pure_run, hr]
      | _ => rfl
    · rw [if_neg h]

theorem Prog.Ends.pair {α β : Type} {x : M World α} {a : α} {evs : List Event} {m : Nat → Option (Option Val)} {b : β}
    (h : P.Ends w (x w) a evs m) : P.Ends w ((x >>= fun _ => pure b) w) b evs m := by
  obtain ⟨w', h1, h2⟩ := h
  exact ⟨w', by rw [bind_run, h1]; rfl, h2⟩

theorem Prog.Throws.pair {α β : Type} {x : M World α} {evs : List Event} {m : Nat → Option (Option Val)} {b : β}
    (h : P.Throws w (x w) evs m) : P.Throws w ((x >>= fun _ => (pure b : M World β)) w) evs m := by
  obtain ⟨w', h1, h2⟩ := h
  exact ⟨w', by rw [bind_run, h1]; rfl, h2⟩

/-- the innermost value of a fully engaged nested option is a value of the element type -/
theorem innermost_dom (hP : P.OK) {n : Nat} {bs : Bytes} (hwf : (nest n (P.elem r).T).WF P.pw)
    (hv : (nest n (P.elem r).T).Valid P.pw bs) (hd : engagedDepth P.pw n (P.elem r).T bs = n) :
    (P.elem r).Dom P.pw ((P.elem r).decode (innermost P.pw n (P.elem r).T bs)) := by
  refine ⟨_, ?_, rfl⟩
  induction n generalizing bs with
  | zero => exact hv
  | succ n ih =>
    rw [engagedDepth] at hd
    split at hd
    · rename_i he
      exact ih (nest_wf_pred hwf) (payload_valid hv he) (by omega)
    · omega

end Opt
