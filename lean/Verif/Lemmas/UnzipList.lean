import Verif.Lemmas.Unzip
import Verif.Spec.ViewApi

/-!
# `unzip` as a whole
-/

namespace Opt

variable {Val : Type} {P : Prog Val} {q : Parts Val} {w : World} {i : Nat} {mv : Bool}

theorem Prog.ends_R {x : Out World Unit} {w' : World} {m : Nat → Option (Option Val)} {evs : List Event} (h : x = .ok () w')
    (hR : R P w' ⟨m, w.env.after evs⟩) : P.Ends w x () evs m := by
  obtain ⟨h1, h2⟩ := Prog.R_abs hR
  simp only [Prog.abs, AState.mk.injEq] at h2
  exact ⟨w', h, h1, h2.1.symm, h2.2.symm⟩

theorem Prog.throws_R {x : Out World Unit} {w' : World} {m : Nat → Option (Option Val)} {evs : List Event} (h : x = .throw w')
    (hR : R P w' ⟨m, w.env.after evs⟩) : P.Throws w x evs m := by
  obtain ⟨h1, h2⟩ := Prog.R_abs hR
  simp only [Prog.abs, AState.mk.injEq] at h2
  exact ⟨w', h, h1, h2.1.symm, h2.2.symm⟩

theorem Prog.view_R (hw : P.Inv w) : R P w ⟨P.view w, w.env⟩ := Prog.abs_R hw

namespace Prog

theorem hasValue_view (hw : P.Inv w) {x : Option Val} (hi : P.view w i = some x) : P.hasValue i w = .ok x.isSome w := by
  obtain ⟨o, ho, hr⟩ := (view_R hw).some' hi
  exact hasValue_run ho hr

theorem indexed_fst (rs : List Nat) : (indexed rs).map (·.1) = List.range rs.length := by
  rw [indexed, List.map_fst_zip (by simp)]

theorem indexed_snd (rs : List Nat) : (indexed rs).map (·.2) = rs := by
  rw [indexed, List.map_snd_zip (by simp)]

theorem indexed_mem {rs : List Nat} {k : Nat} (h : k < rs.length) : (k, rs[k]) ∈ indexed rs := by
  rw [indexed, List.mem_iff_getElem]
  exact ⟨k, by simpa using h, by simp⟩

theorem mem_indexed {rs : List Nat} {p : Nat × Nat} (h : p ∈ indexed rs) : ∃ h : p.1 < rs.length, p.2 = rs[p.1] := by
  rw [indexed, List.mem_iff_getElem] at h
  obtain ⟨k, hk, rfl⟩ := h
  simp at hk
  exact ⟨by simpa using hk, by simp⟩

theorem indexed_len (rs : List Nat) : (indexed rs).length = rs.length := by simp [indexed]

theorem indexed_split (pre : List Nat) (r : Nat) (post : List Nat) :
    ∃ post', indexed (pre ++ r :: post) = indexed pre ++ (pre.length, r) :: post' := by
  refine ⟨(List.range' (pre.length + 1) post.length).zip post, ?_⟩
  simp only [indexed, List.length_append, List.length_cons, List.range_eq_range']
  rw [show pre.length + (post.length + 1) = pre.length + (1 + post.length) by omega, ← List.range'_append_1,
    List.zip_append (by simp), ← List.range'_append_1]
  simp

theorem unzipList_ok (hP : P.OK) (hq : q.Apart) (hw : P.Inv w) {rs : List Nat} {v : Val} (hi : P.view w i = some (some v))
    (hs : rs.Nodup) (hf : ∀ r ∈ rs, P.view w r = none) (hl : q.Legal P i (indexed rs)) (ht : P.Quiet w.env.tick rs.length) :
    ∃ w' m, P.unzipList q i mv rs w = .ok () w' ∧ R P w' ⟨m, w.env.after (P.partEvs mv rs)⟩ ∧
      (∀ k (h : k < rs.length), m rs[k] = some (some (q.part k v))) ∧
      m i = some (some (P.tupleLeft q mv w.env.tick v (indexed rs))) ∧ ∀ a, a ≠ i → a ∉ rs → m a = P.view w a := by
  obtain ⟨w', m, h1, h2, h3⟩ := unzipElems_ok (mv := mv) hP hq (ps := indexed rs) (view_R hw) hi
    (by rw [indexed_fst]; exact List.nodup_range) (by rw [indexed_snd]; exact hs)
    (fun p hp => by obtain ⟨h, e⟩ := mem_indexed hp; rw [e]; exact hf _ (List.getElem_mem h)) hl
    (by rw [indexed_len]; exact ht)
  rw [indexed_snd] at h2
  refine ⟨w', m, ?_, h2, fun k h => h3.part _ (indexed_mem h), h3.tuple, fun a ha hr => h3.rest a ha ?_⟩
  · simp only [unzipList, bind_run, hasValue_view hw hi, obind_ok, Option.isSome_some, if_true, h1]
  · rw [indexed_snd]; exact hr

theorem unzipList_throw (hP : P.OK) (hq : q.Apart) (hw : P.Inv w) {pre post : List Nat} {r : Nat} {v : Val}
    (hi : P.view w i = some (some v)) (hs : (pre ++ [r]).Nodup) (hf : ∀ a ∈ pre ++ [r], P.view w a = none)
    (hl : q.Legal P i (indexed (pre ++ [r])))
    (ht : ∀ n, w.env.tick ≤ n → n < w.env.tick + (P.partEvs mv pre).length → P.throwsAt n = false)
    (hc : (P.elem r).ctorTriv (partKind mv) = false) (hn : P.throwsAt (w.env.tick + (P.partEvs mv pre).length) = true) :
    ∃ w', P.unzipList q i mv (pre ++ r :: post) w = .throw w' ∧
      R P w' ⟨upd (P.view w) i (some (some (if mv then q.after true pre.length (w.env.tick + (P.partEvs mv pre).length)
          (P.tupleLeft q mv w.env.tick v (indexed pre)) else v))),
        w.env.after (P.partEvs mv pre ++ [.ctorFail r (partKind mv)] ++ P.dropEvs pre.reverse)⟩ := by
  obtain ⟨post', hp⟩ := indexed_split pre r post
  obtain ⟨post1, hp1⟩ := indexed_split pre r []
  have hsub : ∀ p ∈ indexed pre ++ [(pre.length, r)], p ∈ indexed (pre ++ [r]) := by
    intro p h
    rw [hp1]
    rcases List.mem_append.1 h with h | h
    · exact List.mem_append_left _ h
    · cases List.mem_singleton.1 h
      exact List.mem_append_right _ (List.mem_cons_self ..)
  obtain ⟨w', h1, h2⟩ := unzipElems_throw (mv := mv) (post := post') (k := pre.length) (r := r) hP hq (pre := indexed pre)
    (view_R hw) hi
    (by rw [indexed_fst, ← List.range_succ]; exact List.nodup_range)
    (by rw [indexed_snd]; exact hs)
    (fun p hp => by
      obtain ⟨h, e⟩ := mem_indexed hp
      rw [e]; exact hf _ (List.mem_append_left _ (List.getElem_mem h)))
    (hf r (List.mem_append_right _ (List.mem_cons_self ..)))
    (fun v hv p hp => hl v hv p (hsub p hp))
    (by rw [indexed_snd]; exact ht) hc (by rw [indexed_snd]; exact hn)
  rw [indexed_snd] at h2
  refine ⟨w', ?_, h2⟩
  simp only [unzipList, bind_run, hasValue_view hw hi, obind_ok, Option.isSome_some, if_true, hp, h1]

theorem unzipList_none (hP : P.OK) (hw : P.Inv w) {rs : List Nat} (hi : P.view w i = some none)
    (hs : rs.Nodup) (hf : ∀ r ∈ rs, P.view w r = none) :
    ∃ w' m, P.unzipList q i mv rs w = .ok () w' ∧ R P w' ⟨m, w.env⟩ ∧
      (∀ r ∈ rs, m r = some none) ∧ ∀ a, a ∉ rs → m a = P.view w a := by
  obtain ⟨w', m, h1, h2, h3, h4⟩ := unzipNone_ok hP (view_R hw) hs hf
  refine ⟨w', m, ?_, h2, h3, h4⟩
  simp only [unzipList, bind_run, hasValue_view hw hi, obind_ok, Option.isSome_none, Bool.false_eq_true, if_false, h1]

/-- results and temporaries, related by position; `m1` is the view after the temporaries were made -/
theorem zip_moveOK {rs ts : List Nat} {ms : List (Nat × Nat)} {m1 : Nat → Option (Option Val)} (hlen : rs.length = ts.length)
    (hms : ms.Perm (rs.zip ts)) (hs : (rs ++ ts).Nodup) (hc : ∀ p ∈ ms, P.cls p.1 = P.cls p.2) (hr : ∀ r ∈ rs, m1 r = none)
    (ht : ∀ t ∈ ts, ∃ x, m1 t = some x) : MoveOK P m1 (fun a => (m1 a).join) ms := by
  have h1 : (ms.map (·.1)).Perm rs := by
    have := hms.map (·.1)
    rwa [List.map_fst_zip (by omega)] at this
  have h2 : (ms.map (·.2)).Perm ts := by
    have := hms.map (·.2)
    rwa [List.map_snd_zip (by omega)] at this
  rw [List.nodup_append] at hs
  refine ⟨fun p hp => ?_, fun p hp => ?_, hc, h1.nodup_iff.2 hs.1, h2.nodup_iff.2 hs.2.1⟩
  · exact hr _ (h1.mem_iff.1 (List.mem_map.2 ⟨p, hp, rfl⟩))
  · obtain ⟨x, hx⟩ := ht p.2 (h2.mem_iff.1 (List.mem_map.2 ⟨p, hp, rfl⟩))
    show m1 p.2 = some (m1 p.2).join
    rw [hx]; rfl

theorem zip_getElem {rs ts : List Nat} {ms : List (Nat × Nat)} (hlen : rs.length = ts.length)
    (hms : ms.Perm (rs.zip ts)) {k : Nat} (h : k < rs.length) : (rs[k], ts[k]'(hlen ▸ h)) ∈ ms := by
  refine hms.mem_iff.2 (List.mem_iff_getElem.2 ⟨k, by rw [List.length_zip]; omega, ?_⟩)
  rw [List.getElem_zip]

theorem moveEvs_eq {ms : List (Nat × Nat)} {x : Nat → Option Val} (h : ∀ p ∈ ms, (x p.2).isSome = true) :
    (ms.flatMap fun p => P.moveEv p.1 p.2 (x p.2)) = P.moveEvs ms := by
  induction ms with
  | nil => rfl
  | cons p ms ih =>
    rw [List.flatMap_cons, ih (fun a ha => h a (List.mem_cons_of_mem _ ha)), moveEv, if_pos (h p (List.mem_cons_self ..))]
    rfl

theorem dropEvs_eq {ts : List Nat} {x : Nat → Option Val} (h : ∀ t ∈ ts, (x t).isSome = true) :
    (ts.flatMap fun t => P.dtorEvs t (x t)) = P.dropEvs ts := by
  induction ts with
  | nil => rfl
  | cons t ts ih =>
    obtain ⟨v, hv⟩ := Option.isSome_iff_exists.1 (h t (List.mem_cons_self ..))
    rw [List.flatMap_cons, ih (fun a ha => h a (List.mem_cons_of_mem _ ha)), hv, dtorEvs_drop, ← dropEvs_append]
    rfl

theorem partEvs_tick {e : Env} {rs : List Nat} : (e.after (P.partEvs mv rs)).tick ≤ e.tick + rs.length := by
  induction rs generalizing e with
  | nil => exact Nat.le_refl _
  | cons r rs ih =>
    rw [partEvs_cons, ← Env.after_after]
    refine Nat.le_trans ih ?_
    have := partEv_tick (P := P) (e := e) (mv := mv) (r := r)
    rw [this, List.length_cons]
    split <;> omega

theorem unzipTuple_ok (hP : P.OK) (hq : q.Apart) (hw : P.Inv w) {rs ts : List Nat} {ms : List (Nat × Nat)} {v : Val}
    (hi : P.view w i = some (some v)) (hlen : rs.length = ts.length) (hms : ms.Perm (rs.zip ts)) (hs : (rs ++ ts).Nodup)
    (hf : ∀ a ∈ rs ++ ts, P.view w a = none) (hc : ∀ p ∈ ms, P.cls p.1 = P.cls p.2)
    (hl : q.Legal P i (indexed ts)) (ht : P.Quiet w.env.tick (2 * ts.length)) :
    ∃ w' m, P.unzipTuple q i mv ts ms w = .ok () w' ∧
      R P w' ⟨m, w.env.after (P.partEvs mv ts ++ P.moveEvs ms ++ P.dropEvs ts.reverse)⟩ ∧
      (∀ k (h : k < rs.length), m rs[k] = some (some (q.part k v))) ∧
      m i = some (some (P.tupleLeft q mv w.env.tick v (indexed ts))) ∧ ∀ a, a ≠ i → a ∉ rs → m a = P.view w a := by
  have hn := List.nodup_append.1 hs
  have hmlen : ms.length = ts.length := by rw [hms.length_eq, List.length_zip]; omega
  obtain ⟨w1, m1, h1, h2, h3, h4, h5⟩ := unzipList_ok (mv := mv) hP hq hw hi hn.2.1
    (fun t h => hf t (List.mem_append_right _ h)) hl (ht.sub (Nat.le_refl _) (by omega))
  have hrm : ∀ r ∈ rs, r ≠ i ∧ r ∉ ts := fun r hr =>
    ⟨(fun e => by have := hf r (List.mem_append_left _ hr); rw [e, hi] at this; cases this),
      fun h => hn.2.2 r hr r h rfl⟩
  have hti : ∀ t ∈ ts, t ≠ i := fun t hh e => by
    have := hf t (List.mem_append_right _ hh); rw [e, hi] at this; cases this
  have hte : ∀ t ∈ ts, ∃ u, m1 t = some (some u) := fun t hh => by
    obtain ⟨k, hk, rfl⟩ := List.mem_iff_getElem.1 hh
    exact ⟨_, h3 k hk⟩
  have hm := zip_moveOK hlen hms hs hc (m1 := m1)
    (fun r hr => by rw [h5 r (hrm r hr).1 (hrm r hr).2]; exact hf r (List.mem_append_left _ hr))
    (fun t hh => by obtain ⟨u, hu⟩ := hte t hh; exact ⟨_, hu⟩)
  have hp1 : ∀ p ∈ ms, p.1 ∈ rs ∧ p.2 ∈ ts := fun p hp => by
    have := hms.mem_iff.1 hp
    exact ⟨(List.of_mem_zip this).1, (List.of_mem_zip this).2⟩
  have hxs : ∀ t ∈ ts, ((m1 t).join).isSome = true := fun t hh => by
    obtain ⟨u, hu⟩ := hte t hh; rw [hu]; rfl
  obtain ⟨w2, m2, g1, g2, g3, g4, g5⟩ := moveAll_ok hP h2 hm (ht.sub (Nat.le_add_right ..) (by
    have := partEvs_tick (P := P) (mv := mv) (e := w.env) (rs := ts); omega))
  rw [moveEvs_eq (x := fun a => (m1 a).join) (fun p hp => hxs _ (hp1 p hp).2), Env.after_after] at g2
  have hts2 : ∀ t ∈ ts, ∃ y, m2 t = some (some y) := fun t hh => by
    obtain ⟨k, hk, rfl⟩ := List.mem_iff_getElem.1 hh
    obtain ⟨y, hy, hs⟩ := g4 _ (zip_getElem hlen hms (k := k) (by omega))
    obtain ⟨u, rfl⟩ := Option.isSome_iff_exists.1 (hs.trans (hxs _ hh))
    exact ⟨u, hy⟩
  have hfst : ∀ a, a ∈ ms.map (·.1) → a ∈ rs := fun a h => by
    obtain ⟨p, hp, rfl⟩ := List.mem_map.1 h; exact (hp1 p hp).1
  have hsnd : ∀ a, a ∈ ms.map (·.2) → a ∈ ts := fun a h => by
    obtain ⟨p, hp, rfl⟩ := List.mem_map.1 h; exact (hp1 p hp).2
  obtain ⟨w3, m3, k1, k2, k3, k4⟩ := dtorAll_ok hP (x := fun a => (m2 a).join) (ts := ts.reverse) g2
    ((List.reverse_perm ts).nodup_iff.2 hn.2.1)
    (fun t hh => by obtain ⟨y, hy⟩ := hts2 t (List.mem_reverse.1 hh); rw [hy]; rfl)
  rw [dropEvs_eq (x := fun a => (m2 a).join) (fun t hh => by obtain ⟨y, hy⟩ := hts2 t (List.mem_reverse.1 hh); rw [hy]; rfl), Env.after_after] at k2
  refine ⟨w3, m3, ?_, k2, ?_, ?_, ?_⟩
  · simp only [unzipTuple, bind_run, h1, obind_ok, M.onThrow, g1, k1]
  · intro k hk
    have hr := hrm _ (List.getElem_mem hk)
    rw [k4 _ (fun h => hr.2 (List.mem_reverse.1 h)), g3 _ (zip_getElem hlen hms hk)]
    simp only [h3 k (hlen ▸ hk), Option.join_some]
  · have hit : i ∉ ts := fun h => hti i h rfl
    have hir : i ∉ rs := fun h => (hrm i h).1 rfl
    rw [k4 i (fun h => hit (List.mem_reverse.1 h)), g5 i (fun h => hir (hfst _ h)) (fun h => hit (hsnd _ h)), h4]
  · intro a ha hr
    by_cases hat : a ∈ ts
    · rw [k3 a (List.mem_reverse.2 hat), hf a (List.mem_append_right _ hat)]
    · rw [k4 a (fun h => hat (List.mem_reverse.1 h)), g5 a (fun h => hr (hfst _ h)) (fun h => hat (hsnd _ h)), h5 a ha hat]

/-- moving empty options runs no user code -/
theorem moveNone_ok (hP : P.OK) {x : Nat → Option Val} : ∀ {ms : List (Nat × Nat)} {w : World}
    {m : Nat → Option (Option Val)} {e : Env}, R P w ⟨m, e⟩ → MoveOK P m x ms → (∀ p ∈ ms, x p.2 = none) →
    ∃ w' m', P.moveAll ms w = .ok () w' ∧ R P w' ⟨m', e⟩ ∧
      (∀ p ∈ ms, m' p.1 = some none) ∧ (∀ p ∈ ms, m' p.2 = some none) ∧
      ∀ a, a ∉ ms.map (·.1) → a ∉ ms.map (·.2) → m' a = m a
  | [], w, m, e, h, _, _ => ⟨w, m, rfl, h, (fun _ h => by cases h), (fun _ h => by cases h), fun _ _ _ => rfl⟩
  | (r, t) :: ms, w, m, e, h, hm, hx => by
    have hmem : (r, t) ∈ (r, t) :: ms := List.mem_cons_self ..
    have hrn := hm.fresh _ hmem
    have htn : m t = some (x t) := hm.temp _ hmem
    have hxt : x t = none := hx _ hmem
    obtain ⟨_, w1, h1, h2⟩ := rel_ok
      (ctorFrom_sim hP (i := r) (j := t) (mv := true) (fun ⟨v, hv⟩ => by
        have hv' : m t = some (some v) := hv
        rw [htn, hxt] at hv'; cases hv') h)
      ((Spec.ctorFrom_none (hxt ▸ htn)).trans (Spec.new_eq hrn))
    have hm' : MoveOK P (upd m r (some none)) x ms := by
      have := hm.tail (y := none)
      have he : m t = some none := by rw [htn, hxt]
      rwa [hxt, upd_self he] at this
    obtain ⟨w2, m2, h3, h4, h5, h6, h7⟩ := moveNone_ok hP h2 hm' (fun p hp => hx p (List.mem_cons_of_mem _ hp))
    have hr1 := hm.nd1; have hr2 := hm.nd2
    rw [List.map_cons, List.nodup_cons] at hr1 hr2
    have hrt : r ≠ t := by rintro rfl; rw [show m r = none from hrn] at htn; cases htn
    have hrs : r ∉ ms.map (·.2) := fun hh => by
      obtain ⟨p, hp, he⟩ := List.mem_map.1 hh
      have := hm.temp p (List.mem_cons_of_mem _ hp)
      rw [he, show m r = none from hrn] at this; cases this
    have htf : t ∉ ms.map (·.1) := fun hh => by
      obtain ⟨p, hp, he⟩ := List.mem_map.1 hh
      have := hm.fresh p (List.mem_cons_of_mem _ hp)
      rw [he, htn] at this; cases this
    refine ⟨w2, m2, ?_, h4, ?_, ?_, ?_⟩
    · simp only [moveAll, bind_run, h1, obind_ok, M.onThrow, h3]
    · intro p hp
      rcases List.mem_cons.1 hp with rfl | hp
      · rw [h7 _ hr1.1 hrs, upd_same]
      · exact h5 p hp
    · intro p hp
      rcases List.mem_cons.1 hp with rfl | hp
      · rw [h7 _ htf hr2.1, upd_other _ _ (Ne.symm hrt), htn, hxt]
      · exact h6 p hp
    · intro a h1 h2
      rw [List.map_cons, List.mem_cons, not_or] at h1 h2
      rw [h7 a h1.2 h2.2, upd_other _ _ h1.1]

theorem unzipTuple_none (hP : P.OK) (hw : P.Inv w) {rs ts : List Nat} {ms : List (Nat × Nat)}
    (hi : P.view w i = some none) (hlen : rs.length = ts.length) (hms : ms.Perm (rs.zip ts)) (hs : (rs ++ ts).Nodup)
    (hf : ∀ a ∈ rs ++ ts, P.view w a = none) (hc : ∀ p ∈ ms, P.cls p.1 = P.cls p.2) :
    ∃ w' m, P.unzipTuple q i mv ts ms w = .ok () w' ∧ R P w' ⟨m, w.env⟩ ∧
      (∀ r ∈ rs, m r = some none) ∧ ∀ a, a ∉ rs → m a = P.view w a := by
  have hn := List.nodup_append.1 hs
  obtain ⟨w1, m1, h1, h2, h3, h5⟩ := unzipList_none (q := q) (mv := mv) hP hw hi hn.2.1
    (fun t h => hf t (List.mem_append_right _ h))
  have hm := zip_moveOK hlen hms hs hc (m1 := m1)
    (fun r hr => by rw [h5 r (fun h => hn.2.2 r hr r h rfl)]; exact hf r (List.mem_append_left _ hr))
    (fun t hh => ⟨_, h3 t hh⟩)
  have hp1 : ∀ p ∈ ms, p.1 ∈ rs ∧ p.2 ∈ ts := fun p hp => by
    have := hms.mem_iff.1 hp
    exact ⟨(List.of_mem_zip this).1, (List.of_mem_zip this).2⟩
  obtain ⟨w2, m2, g1, g2, g3, g4, g5⟩ := moveNone_ok hP h2 hm (fun p hp => by rw [h3 _ (hp1 p hp).2]; rfl)
  have hts2 : ∀ t ∈ ts, m2 t = some none := fun t hh => by
    obtain ⟨k, hk, rfl⟩ := List.mem_iff_getElem.1 hh
    exact g4 _ (zip_getElem hlen hms (k := k) (by omega))
  have hfst : ∀ a, a ∈ ms.map (·.1) → a ∈ rs := fun a h => by
    obtain ⟨p, hp, rfl⟩ := List.mem_map.1 h; exact (hp1 p hp).1
  have hsnd : ∀ a, a ∈ ms.map (·.2) → a ∈ ts := fun a h => by
    obtain ⟨p, hp, rfl⟩ := List.mem_map.1 h; exact (hp1 p hp).2
  obtain ⟨w3, m3, k1, k2, k3, k4⟩ := dtorAll_ok hP (x := fun _ => none) (ts := ts.reverse) g2
    ((List.reverse_perm ts).nodup_iff.2 hn.2.1) (fun t hh => hts2 t (List.mem_reverse.1 hh))
  have hnil : (ts.reverse.flatMap fun t => P.dtorEvs t (none : Option Val)) = [] :=
    List.flatMap_eq_nil_iff.2 (fun _ _ => rfl)
  rw [hnil, Env.after_nil] at k2
  refine ⟨w3, m3, ?_, k2, ?_, ?_⟩
  · simp only [unzipTuple, bind_run, h1, obind_ok, M.onThrow, g1, k1]
  · intro r hr
    obtain ⟨k, hk, rfl⟩ := List.mem_iff_getElem.1 hr
    rw [k4 _ (fun h => hn.2.2 _ hr _ (List.mem_reverse.1 h) rfl), g3 _ (zip_getElem hlen hms hk)]
  · intro a hr
    by_cases hat : a ∈ ts
    · rw [k3 a (List.mem_reverse.2 hat), hf a (List.mem_append_right _ hat)]
    · rw [k4 a (fun h => hat (List.mem_reverse.1 h)), g5 a (fun h => hr (hfst _ h)) (fun h => hat (hsnd _ h)), h5 a hat]

theorem unzipTuple_list_throw (hP : P.OK) (hq : q.Apart) (hw : P.Inv w) {pre post : List Nat} {r : Nat}
    {ms : List (Nat × Nat)} {v : Val} (hi : P.view w i = some (some v)) (hs : (pre ++ [r]).Nodup)
    (hf : ∀ a ∈ pre ++ [r], P.view w a = none) (hl : q.Legal P i (indexed (pre ++ [r])))
    (ht : ∀ n, w.env.tick ≤ n → n < w.env.tick + (P.partEvs mv pre).length → P.throwsAt n = false)
    (hc : (P.elem r).ctorTriv (partKind mv) = false) (hn : P.throwsAt (w.env.tick + (P.partEvs mv pre).length) = true) :
    ∃ w', P.unzipTuple q i mv (pre ++ r :: post) ms w = .throw w' ∧
      R P w' ⟨upd (P.view w) i (some (some (if mv then q.after true pre.length (w.env.tick + (P.partEvs mv pre).length)
          (P.tupleLeft q mv w.env.tick v (indexed pre)) else v))),
        w.env.after (P.partEvs mv pre ++ [.ctorFail r (partKind mv)] ++ P.dropEvs pre.reverse)⟩ := by
  obtain ⟨w', h1, h2⟩ := unzipList_throw (post := post) hP hq hw hi hs hf hl ht hc hn
  refine ⟨w', ?_, h2⟩
  simp only [unzipTuple, bind_run, h1, obind_throw]

theorem unzipTuple_move_throw (hP : P.OK) (hq : q.Apart) (hw : P.Inv w) {rs ts : List Nat} {pre post : List (Nat × Nat)}
    {r t : Nat} {v : Val} (hi : P.view w i = some (some v)) (hlen : rs.length = ts.length)
    (hms : (pre ++ (r, t) :: post).Perm (rs.zip ts)) (hs : (rs ++ ts).Nodup)
    (hf : ∀ a ∈ rs ++ ts, P.view w a = none) (hc : ∀ p ∈ pre ++ (r, t) :: post, P.cls p.1 = P.cls p.2)
    (hl : q.Legal P i (indexed ts)) (ht : P.Quiet w.env.tick ts.length)
    (ht2 : ∀ n, w.env.tick ≤ n → n < (w.env.after (P.partEvs mv ts ++ P.moveEvs pre)).tick → P.throwsAt n = false)
    (hF : P.FitAt r (P.kind r (.opt t true)) (w.env.after (P.partEvs mv ts ++ P.moveEvs pre)).tick)
    (hct : (P.elem r).ctorTriv (P.kind r (.opt t true)) = false)
    (hn : P.throwsAt (w.env.after (P.partEvs mv ts ++ P.moveEvs pre)).tick = true) :
    ∃ w', P.unzipTuple q i mv ts (pre ++ (r, t) :: post) w = .throw w' ∧
      R P w' ⟨upd (P.view w) i (some (some (P.tupleLeft q mv w.env.tick v (indexed ts)))),
        w.env.after (P.partEvs mv ts ++ P.moveEvs pre ++ [P.buildFail r (.opt t true)] ++
          P.dropEvs (pre.map (·.1)).reverse ++ P.dropEvs ts.reverse)⟩ := by
  have hn' := List.nodup_append.1 hs
  obtain ⟨w1, m1, h1, h2, h3, h4, h5⟩ := unzipList_ok (mv := mv) hP hq hw hi hn'.2.1
    (fun t h => hf t (List.mem_append_right _ h)) hl ht
  have hrm : ∀ r ∈ rs, r ≠ i ∧ r ∉ ts := fun r hr =>
    ⟨(fun e => by have := hf r (List.mem_append_left _ hr); rw [e, hi] at this; cases this),
      fun h => hn'.2.2 r hr r h rfl⟩
  have hti : ∀ t ∈ ts, t ≠ i := fun t hh e => by
    have := hf t (List.mem_append_right _ hh); rw [e, hi] at this; cases this
  have hte : ∀ t ∈ ts, ∃ u, m1 t = some (some u) := fun t hh => by
    obtain ⟨k, hk, rfl⟩ := List.mem_iff_getElem.1 hh
    exact ⟨_, h3 k hk⟩
  have hm := zip_moveOK hlen hms hs hc (m1 := m1)
    (fun r hr => by rw [h5 r (hrm r hr).1 (hrm r hr).2]; exact hf r (List.mem_append_left _ hr))
    (fun t hh => by obtain ⟨u, hu⟩ := hte t hh; exact ⟨_, hu⟩)
  have hp1 : ∀ p ∈ pre ++ (r, t) :: post, p.1 ∈ rs ∧ p.2 ∈ ts := fun p hp => by
    have := hms.mem_iff.1 hp
    exact ⟨(List.of_mem_zip this).1, (List.of_mem_zip this).2⟩
  rw [← Env.after_after] at ht2 hF hn
  obtain ⟨w2, m2, g1, g2, g3, g4⟩ := moveAll_throw hP h2 hm
    (fun p hp => by obtain ⟨u, hu⟩ := hte _ (hp1 p hp).2; rw [hu]; rfl)
    (fun n a b => ht2 n (Nat.le_trans (Nat.le_add_right ..) a) b) hF hct hn
  rw [Env.after_after] at g2
  have hts2 : ∀ t ∈ ts, ∃ y, m2 t = some (some y) := fun t hh => by
    obtain ⟨k, hk, rfl⟩ := List.mem_iff_getElem.1 hh
    exact g3 _ (zip_getElem hlen hms (k := k) (by omega))
  have hsnd : ∀ a, a ∈ (pre ++ (r, t) :: post).map (·.2) → a ∈ ts := fun a h => by
    obtain ⟨p, hp, rfl⟩ := List.mem_map.1 h; exact (hp1 p hp).2
  obtain ⟨w3, m3, k1, k2, k3, k4⟩ := dtorAll_ok hP (x := fun a => (m2 a).join) (ts := ts.reverse) g2
    ((List.reverse_perm ts).nodup_iff.2 hn'.2.1)
    (fun t hh => by obtain ⟨y, hy⟩ := hts2 t (List.mem_reverse.1 hh); rw [hy]; rfl)
  rw [dropEvs_eq (x := fun a => (m2 a).join) (fun t hh => by obtain ⟨y, hy⟩ := hts2 t (List.mem_reverse.1 hh); rw [hy]; rfl), Env.after_after] at k2
  have hm3 : m3 = upd (P.view w) i (some (some (P.tupleLeft q mv w.env.tick v (indexed ts)))) := by
    funext a
    by_cases hat : a ∈ ts
    · rw [k3 a (List.mem_reverse.2 hat), upd_other _ _ (hti a hat), hf a (List.mem_append_right _ hat)]
    · rw [k4 a (fun h => hat (List.mem_reverse.1 h)), g4 a (fun h => hat (hsnd _ h))]
      by_cases hai : a = i
      · subst hai; rw [h4, upd_same]
      · rw [h5 a hai hat, upd_other _ _ hai]
  rw [hm3] at k2
  refine ⟨w3, ?_, by simpa only [List.append_assoc] using k2⟩
  simp only [unzipTuple, bind_run, h1, obind_ok, M.onThrow, g1, k1, obind_throw]

theorem zipLeaves_none {is : List (Nat × Bool)} {n a : Nat} {m : Nat → Option (Option Val)} (h : m a = none) :
    P.zipLeaves n m is a = none := by
  induction is generalizing n m with
  | nil => exact h
  | cons p is ih =>
    refine ih ?_
    simp only [ctorLeaves, Src.leaves]
    split
    · exact h
    · cases p.2 with
      | false => exact h
      | true =>
        by_cases ha : a = p.1
        · subst ha; simp only [upd_same, h, Option.map_none]
        · simp only [upd_other _ _ ha, h]

theorem holds_range {m : Nat → Option (Option Val)} {rs : List Nat} {f : Nat → Val}
    (h : ∀ k (h : k < rs.length), m rs[k] = some (some (f k))) : Holds m rs ((List.range rs.length).map f) := by
  induction rs generalizing f with
  | nil => trivial
  | cons r rs ih =>
    rw [List.length_cons, List.range_succ_eq_map, List.map_cons, List.map_map]
    refine ⟨h 0 (Nat.succ_pos _), ih (f := fun k => f (k + 1)) fun k hk => ?_⟩
    exact h (k + 1) (Nat.succ_lt_succ hk)

end Prog

end Opt
