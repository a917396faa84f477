import Verif.Props.Laws
import Verif.Lemmas.UnzipList

/-!
# C32: `unzip`

`q` gives the elements of the tuple in option `i`.  The results are options that did not exist before; the k-th one is made from
element k.
-/

namespace Opt

variable {Val : Type} {P : Prog Val} {q : Parts Val} {w : World} {i : Nat} {mv : Bool}

/-! ## Arrays -/

/-- **C32**: `unzip` of an engaged option of an array: every result holds its element; each element is copied (moved from an
rvalue) exactly once, in order; the options that are not concerned are as before. -/
theorem C32_unzip_array_engaged (hP : P.OK) (hq : q.Apart) (hw : P.Inv w) {rs : List Nat} {v : Val}
    (hi : P.view w i = some (some v)) (hs : rs.Nodup) (hf : ∀ r ∈ rs, P.view w r = none)
    (hl : q.Legal P i (Prog.indexed rs)) (ht : P.Quiet w.env.tick rs.length) :
    ∃ m, P.Ends w (P.unzipArray q i mv rs w) () (P.partEvs mv rs) m ∧
      (∀ k (h : k < rs.length), m rs[k] = some (some (q.part k v))) ∧
      m i = some (some (P.tupleLeft q mv w.env.tick v (Prog.indexed rs))) ∧ ∀ a, a ≠ i → a ∉ rs → m a = P.view w a := by
  obtain ⟨w', m, h1, h2, h3, h4, h5⟩ := Prog.unzipList_ok (mv := mv) hP hq hw hi hs hf hl ht
  exact ⟨m, Prog.ends_R h1 h2, h3, h4, h5⟩

/-- **C32**: `unzip` of an empty option of an array: every result is empty, no user code runs. -/
theorem C32_unzip_array_empty (hP : P.OK) (hw : P.Inv w) {rs : List Nat} (hi : P.view w i = some none)
    (hs : rs.Nodup) (hf : ∀ r ∈ rs, P.view w r = none) :
    ∃ m, P.Ends w (P.unzipArray q i mv rs w) () [] m ∧ (∀ r ∈ rs, m r = some none) ∧ ∀ a, a ∉ rs → m a = P.view w a := by
  obtain ⟨w', m, h1, h2, h3, h4⟩ := Prog.unzipList_none (q := q) (mv := mv) hP hw hi hs hf
  exact ⟨m, Prog.ends_R h1 (by rw [Env.after_nil]; exact h2), h3, h4⟩

/-- **C32**: if the constructor of an element throws, the results made before it are destroyed in reverse order, no result
exists, and only the tuple can have changed (when its elements were moved from). -/
theorem C32_unzip_array_throws (hP : P.OK) (hq : q.Apart) (hw : P.Inv w) {pre post : List Nat} {r : Nat} {v : Val}
    (hi : P.view w i = some (some v)) (hs : (pre ++ [r]).Nodup) (hf : ∀ a ∈ pre ++ [r], P.view w a = none)
    (hl : q.Legal P i (Prog.indexed (pre ++ [r])))
    (ht : ∀ n, w.env.tick ≤ n → n < w.env.tick + (P.partEvs mv pre).length → P.throwsAt n = false)
    (hc : (P.elem r).ctorTriv (Prog.partKind mv) = false)
    (hn : P.throwsAt (w.env.tick + (P.partEvs mv pre).length) = true) :
    P.Throws w (P.unzipArray q i mv (pre ++ r :: post) w)
      (P.partEvs mv pre ++ [.ctorFail r (Prog.partKind mv)] ++ P.dropEvs pre.reverse)
      (upd (P.view w) i (some (some (if mv then q.after true pre.length (w.env.tick + (P.partEvs mv pre).length)
          (P.tupleLeft q mv w.env.tick v (Prog.indexed pre)) else v)))) := by
  obtain ⟨w', h1, h2⟩ := Prog.unzipList_throw (post := post) hP hq hw hi hs hf hl ht hc hn
  exact Prog.throws_R h1 h2

/-! ## Tuples and pairs -/

/-- **C32**: `unzip` of an engaged option of a `std::tuple` or `std::pair`, whatever the order in which the constructor of the
result moves its elements: every result holds its element, the temporaries are gone, and every temporary was made, moved from and
destroyed exactly once. -/
theorem C32_unzip_tuple_engaged (hP : P.OK) (hq : q.Apart) (hw : P.Inv w) {rs ts : List Nat} {ms : List (Nat × Nat)} {v : Val}
    (hi : P.view w i = some (some v)) (hlen : rs.length = ts.length) (hms : ms.Perm (rs.zip ts)) (hs : (rs ++ ts).Nodup)
    (hf : ∀ a ∈ rs ++ ts, P.view w a = none) (hc : ∀ p ∈ ms, P.cls p.1 = P.cls p.2)
    (hl : q.Legal P i (Prog.indexed ts)) (ht : P.Quiet w.env.tick (2 * ts.length)) :
    ∃ m, P.Ends w (P.unzipTuple q i mv ts ms w) () (P.partEvs mv ts ++ P.moveEvs ms ++ P.dropEvs ts.reverse) m ∧
      (∀ k (h : k < rs.length), m rs[k] = some (some (q.part k v))) ∧
      m i = some (some (P.tupleLeft q mv w.env.tick v (Prog.indexed ts))) ∧ ∀ a, a ≠ i → a ∉ rs → m a = P.view w a := by
  obtain ⟨w', m, h1, h2, h3, h4, h5⟩ := Prog.unzipTuple_ok (mv := mv) hP hq hw hi hlen hms hs hf hc hl ht
  exact ⟨m, Prog.ends_R h1 h2, h3, h4, h5⟩

/-- **C32**: `unzip` of an empty option of a tuple: every result is empty, no user code runs. -/
theorem C32_unzip_tuple_empty (hP : P.OK) (hw : P.Inv w) {rs ts : List Nat} {ms : List (Nat × Nat)}
    (hi : P.view w i = some none) (hlen : rs.length = ts.length) (hms : ms.Perm (rs.zip ts)) (hs : (rs ++ ts).Nodup)
    (hf : ∀ a ∈ rs ++ ts, P.view w a = none) (hc : ∀ p ∈ ms, P.cls p.1 = P.cls p.2) :
    ∃ m, P.Ends w (P.unzipTuple q i mv ts ms w) () [] m ∧ (∀ r ∈ rs, m r = some none) ∧ ∀ a, a ∉ rs → m a = P.view w a := by
  obtain ⟨w', m, h1, h2, h3, h4⟩ := Prog.unzipTuple_none (q := q) (mv := mv) hP hw hi hlen hms hs hf hc
  exact ⟨m, Prog.ends_R h1 (by rw [Env.after_nil]; exact h2), h3, h4⟩

/-- **C32**: the constructor of a temporary throws: the earlier temporaries are destroyed, no result exists. -/
theorem C32_unzip_tuple_throws (hP : P.OK) (hq : q.Apart) (hw : P.Inv w) {pre post : List Nat} {r : Nat}
    {ms : List (Nat × Nat)} {v : Val} (hi : P.view w i = some (some v)) (hs : (pre ++ [r]).Nodup)
    (hf : ∀ a ∈ pre ++ [r], P.view w a = none) (hl : q.Legal P i (Prog.indexed (pre ++ [r])))
    (ht : ∀ n, w.env.tick ≤ n → n < w.env.tick + (P.partEvs mv pre).length → P.throwsAt n = false)
    (hc : (P.elem r).ctorTriv (Prog.partKind mv) = false)
    (hn : P.throwsAt (w.env.tick + (P.partEvs mv pre).length) = true) :
    P.Throws w (P.unzipTuple q i mv (pre ++ r :: post) ms w)
      (P.partEvs mv pre ++ [.ctorFail r (Prog.partKind mv)] ++ P.dropEvs pre.reverse)
      (upd (P.view w) i (some (some (if mv then q.after true pre.length (w.env.tick + (P.partEvs mv pre).length)
          (P.tupleLeft q mv w.env.tick v (Prog.indexed pre)) else v)))) := by
  obtain ⟨w', h1, h2⟩ := Prog.unzipTuple_list_throw (post := post) (ms := ms) hP hq hw hi hs hf hl ht hc hn
  exact Prog.throws_R h1 h2

/-- **C32**: a move from a temporary into the result throws: the results made before are destroyed in reverse order, then all
temporaries are; no result and no temporary exists. -/
theorem C32_unzip_tuple_move_throws (hP : P.OK) (hq : q.Apart) (hw : P.Inv w) {rs ts : List Nat} {pre post : List (Nat × Nat)}
    {r t : Nat} {v : Val} (hi : P.view w i = some (some v)) (hlen : rs.length = ts.length)
    (hms : (pre ++ (r, t) :: post).Perm (rs.zip ts)) (hs : (rs ++ ts).Nodup)
    (hf : ∀ a ∈ rs ++ ts, P.view w a = none) (hc : ∀ p ∈ pre ++ (r, t) :: post, P.cls p.1 = P.cls p.2)
    (hl : q.Legal P i (Prog.indexed ts)) (ht : P.Quiet w.env.tick ts.length)
    (ht2 : ∀ n, w.env.tick ≤ n → n < (w.env.after (P.partEvs mv ts ++ P.moveEvs pre)).tick → P.throwsAt n = false)
    (hF : P.FitAt r (P.kind r (.opt t true)) (w.env.after (P.partEvs mv ts ++ P.moveEvs pre)).tick)
    (hct : (P.elem r).ctorTriv (P.kind r (.opt t true)) = false)
    (hn : P.throwsAt (w.env.after (P.partEvs mv ts ++ P.moveEvs pre)).tick = true) :
    P.Throws w (P.unzipTuple q i mv ts (pre ++ (r, t) :: post) w)
      (P.partEvs mv ts ++ P.moveEvs pre ++ [P.buildFail r (.opt t true)] ++ P.dropEvs (pre.map (·.1)).reverse ++
        P.dropEvs ts.reverse)
      (upd (P.view w) i (some (some (P.tupleLeft q mv w.env.tick v (Prog.indexed ts))))) := by
  obtain ⟨w', h1, h2⟩ := Prog.unzipTuple_move_throw (mv := mv) hP hq hw hi hlen hms hs hf hc hl ht ht2 hF hct hn
  exact Prog.throws_R h1 h2

/-! ## `zip` and `unzip` together -/

/-- **C32**: `unzip(zip(o₁, ..., oₙ))` of engaged options gives their values, in order. -/
theorem C32_unzip_zip_engaged (hP : P.OK) (hq : q.Apart) (hw : P.Inv w) (hn : ∀ n, P.throwsAt n = false)
    {is : List (Nat × Bool)} {vs : List Val} {g : List Val → Val} {r : Nat} {rs ts : List Nat} {ms : List (Nat × Nat)}
    (hg : ∀ vs, P.TupleDom (is.map (·.1)) vs → (P.elem r).Dom P.pw (g vs)) (hz : Prog.ZipOK is)
    (hr : P.view w r = none) (hx : Prog.Holds (P.view w) (is.map (·.1)) vs)
    (hqg : ∀ k (h : k < vs.length), q.part k (g vs) = vs[k]) (hlen : rs.length = vs.length) (hlt : rs.length = ts.length)
    (hms : ms.Perm (rs.zip ts)) (hc : ∀ p ∈ ms, P.cls p.1 = P.cls p.2)
    (hs : (r :: (rs ++ ts)).Nodup) (hf : ∀ a ∈ rs ++ ts, P.view w a = none) (hl : q.Legal P r (Prog.indexed ts)) :
    ∃ w', (P.zip is r g >>= fun _ => P.unzipTuple q r mv ts ms) w = .ok () w' ∧ P.Inv w' ∧
      ∀ k (h : k < rs.length), P.view w' rs[k] = some (some (vs[k]'(hlen ▸ h))) := by
  rw [List.nodup_cons] at hs
  obtain ⟨w1, h1, h2, h3, _⟩ := C32_zip_engaged hP hw hg hz hr hx (fun n _ _ => hn n)
  have hf1 : ∀ a ∈ rs ++ ts, P.view w1 a = none := fun a ha => by
    have hne : a ≠ r := by rintro rfl; exact hs.1 ha
    rw [h3, upd_other _ _ hne]
    exact Prog.zipLeaves_none (hf a ha)
  obtain ⟨m, ⟨w2, g1, g2, g3, _⟩, g4, _, _⟩ := C32_unzip_tuple_engaged (mv := mv) hP hq h2 (i := r) (v := g vs)
    (by rw [h3, upd_same]) hlt hms hs.2 hf1 hc hl (fun n _ _ => hn n)
  refine ⟨w2, ?_, g2, fun k h => ?_⟩
  · simp only [bind_run, h1, obind_ok, g1]
  · rw [g3, g4 k h, hqg]

/-- **C32**: `unzip(zip(o₁, ..., oₙ))` with an empty argument is all empty. -/
theorem C32_unzip_zip_empty (hP : P.OK) (hw : P.Inv w) {is : List (Nat × Bool)} {g : List Val → Val} {r : Nat}
    {rs ts : List Nat} {ms : List (Nat × Nat)}
    (hg : ∀ vs, P.TupleDom (is.map (·.1)) vs → (P.elem r).Dom P.pw (g vs))
    (hr : P.view w r = none) (hx : ∀ p ∈ is, ∃ x, P.view w p.1 = some x) (he : ∃ p ∈ is, P.view w p.1 = some none)
    (hlt : rs.length = ts.length) (hms : ms.Perm (rs.zip ts)) (hc : ∀ p ∈ ms, P.cls p.1 = P.cls p.2)
    (hs : (r :: (rs ++ ts)).Nodup) (hf : ∀ a ∈ rs ++ ts, P.view w a = none) :
    ∃ w', (P.zip is r g >>= fun _ => P.unzipTuple q r mv ts ms) w = .ok () w' ∧ P.Inv w' ∧ w'.env = w.env ∧
      ∀ a ∈ rs, P.view w' a = some none := by
  rw [List.nodup_cons] at hs
  obtain ⟨w1, h1, h2, h3, h4⟩ := C32_zip_empty hP hw hg hr hx he
  have hf1 : ∀ a ∈ rs ++ ts, P.view w1 a = none := fun a ha => by
    have hne : a ≠ r := by rintro rfl; exact hs.1 ha
    rw [h3, upd_other _ _ hne]; exact hf a ha
  obtain ⟨m, ⟨w2, g1, g2, g3, g4⟩, g5, _⟩ := C32_unzip_tuple_empty (q := q) (mv := mv) hP h2 (i := r)
    (by rw [h3, upd_same]) hlt hms hs.2 hf1 hc
  refine ⟨w2, ?_, g2, ?_, fun a ha => ?_⟩
  · simp only [bind_run, h1, obind_ok, g1]
  · rw [g4, Env.after_nil, h4, Env.after_nil]
  · rw [g3, g5 a ha]

/-- **C32**: `zip` of the components of `unzip(o)`, for a tuple that is determined by its elements, is equal to `o`; `o` is empty
or engaged, the tuple is not empty. -/
theorem C32_zip_unzip (hP : P.OK) (hq : q.Apart) (hw : P.Inv w) (hn : ∀ n, P.throwsAt n = false)
    {g : List Val → Val} {s : Nat} {rs ts : List Nat} {ms : List (Nat × Nat)} {mz : Bool} {x : Option Val}
    (hi : P.view w i = some x) (hne : rs ≠ [])
    (hg : ∀ vs, P.TupleDom rs vs → (P.elem s).Dom P.pw (g vs))
    (hqg : ∀ v, g ((List.range rs.length).map (q.part · v)) = v)
    (hlt : rs.length = ts.length) (hms : ms.Perm (rs.zip ts)) (hc : ∀ p ∈ ms, P.cls p.1 = P.cls p.2)
    (hs : (s :: (rs ++ ts)).Nodup) (hf : ∀ a ∈ s :: (rs ++ ts), P.view w a = none) (hl : q.Legal P i (Prog.indexed ts)) :
    ∃ w', (P.unzipTuple q i mv ts ms >>= fun _ => P.zip (rs.map (·, mz)) s g) w = .ok () w' ∧ P.Inv w' ∧
      P.view w' s = some x := by
  have hs' := List.nodup_cons.1 hs
  have hsr : s ∉ rs := fun h => hs'.1 (List.mem_append_left _ h)
  have hrs := (List.nodup_append.1 hs'.2).1
  have hsi : s ≠ i := by rintro rfl; rw [hf s (List.mem_cons_self ..)] at hi; cases hi
  have hfst : (rs.map (·, mz)).map (·.1) = rs := by
    rw [List.map_map]; exact List.map_id _
  cases x with
  | none =>
    obtain ⟨m, ⟨w1, h1, h2, h3, _⟩, h4, h5⟩ := C32_unzip_tuple_empty (q := q) (mv := mv) hP hw hi hlt hms hs'.2
      (fun r hr => hf r (List.mem_cons_of_mem _ hr)) hc
    obtain ⟨a, ha⟩ := List.exists_mem_of_ne_nil _ hne
    obtain ⟨w2, g1, g2, g3, _⟩ := C32_zip_empty (is := rs.map (·, mz)) (r := s) (g := g) hP h2 (by rw [hfst]; exact hg)
      (by rw [h3, h5 s hsr]; exact hf s (List.mem_cons_self ..))
      (fun p hp => by
        obtain ⟨b, hb, rfl⟩ := List.mem_map.1 hp
        exact ⟨none, by rw [h3]; exact h4 b hb⟩)
      ⟨(a, mz), List.mem_map.2 ⟨a, ha, rfl⟩, by rw [h3]; exact h4 a ha⟩
    refine ⟨w2, ?_, g2, by rw [g3, upd_same]⟩
    simp only [bind_run, h1, obind_ok, g1]
  | some v =>
    obtain ⟨m, ⟨w1, h1, h2, h3, _⟩, h4, _, h5⟩ := C32_unzip_tuple_engaged (mv := mv) hP hq hw hi hlt hms hs'.2
      (fun r hr => hf r (List.mem_cons_of_mem _ hr)) hc hl (fun n _ _ => hn n)
    have hh : Prog.Holds (P.view w1) ((rs.map (·, mz)).map (·.1)) ((List.range rs.length).map (q.part · v)) := by
      rw [hfst, h3]
      exact Prog.holds_range h4
    obtain ⟨w2, g1, g2, g3, _⟩ := C32_zip_engaged (is := rs.map (·, mz)) (r := s) (g := g) hP h2 (by rw [hfst]; exact hg)
      (by
        rw [Prog.ZipOK, List.pairwise_map]
        exact hrs.imp (fun h _ e => h e.symm))
      (by rw [h3, h5 s hsi hsr]; exact hf s (List.mem_cons_self ..)) hh (fun n _ _ => hn n)
    refine ⟨w2, ?_, g2, by rw [g3, upd_same, hqg]⟩
    simp only [bind_run, h1, obind_ok, g1]

/-! ## An instance

The "tuple" is a byte with its two halves as elements. -/

/-- the halves of a byte; an element that was moved from is zero -/
def nibbles : Parts Byte where
  part k v := if k = 0 then v &&& 15 else if k = 1 then v >>> 4 else 0
  after _ k _ v := if k = 0 then v &&& 240 else if k = 1 then v &&& 15 else v

theorem nibbles_apart : nibbles.Apart := by
  have h0 : ∀ v : Byte, (v &&& 15) &&& 15 = v &&& 15 := by decide +kernel
  have h1 : ∀ v : Byte, (v &&& 240) >>> 4 = v >>> 4 := by decide +kernel
  intro f k j n v hkj
  simp only [nibbles]
  by_cases hk0 : k = 0
  · by_cases hj1 : j = 1
    · simpa [hk0, hj1] using h0 v
    · simp [hk0, hj1, show j ≠ 0 from fun h => hkj (by omega)]
  · by_cases hk1 : k = 1
    · by_cases hj0 : j = 0
      · simpa [hk1, hj0] using h1 v
      · simp [hk1, hj0, show j ≠ 1 from fun h => hkj (by omega)]
    · simp [hk0, hk1]

/-- the bytes of the classes 0, 1 and 2 are all live, so are the halves -/
theorem nibbles_legal {thr : Nat → Bool} {rs : List Nat} (h : ∀ r ∈ rs, r % 4 ≠ 3) :
    nibbles.Legal (Demo.prog true thr Demo.tidy) 1 (Prog.indexed rs) := by
  intro v _ p hp
  obtain ⟨hk, e⟩ := Prog.mem_indexed hp
  have hr : p.2 % 4 ≠ 3 := by rw [e]; exact h _ (List.getElem_mem hk)
  exact ⟨Demo.dom_mk (p.2 % 4) (by
    have := Demo.cases4 p.2
    rcases this with h | h | h | h
    · exact .inl h
    · exact .inr (.inl h)
    · exact .inr (.inr (.inl h))
    · exact absurd h hr), fun _ _ => Demo.dom_mk 1 (.inr (.inl rfl))⟩

/-- option 1 holds 5, with the halves 5 and 0 -/
example : ∃ m, Demo.calm.Ends Demo.world (Demo.calm.unzipArray nibbles 1 true [8, 12] Demo.world) ()
    [.ctor 8 .move, .ctor 12 .move] m ∧ m 8 = some (some 5) ∧ m 12 = some (some 0) ∧ m 1 = some (some 0) ∧
    m 9 = some (some 6) := by
  obtain ⟨m, h1, h2, h3, h4⟩ := C32_unzip_array_engaged (P := Demo.calm) (mv := true) (rs := [8, 12]) Demo.ok_tidy
    nibbles_apart Demo.inv Demo.view1 (by decide) (by decide +kernel) (nibbles_legal (by decide)) (fun _ _ _ => rfl)
  exact ⟨m, h1, h2 0 (by decide), h2 1 (by decide), h3, (h4 9 (by decide) (by decide)).trans Demo.view9⟩

example : ∃ m, Demo.angry.Ends Demo.world (Demo.angry.unzipArray nibbles 5 true [8, 12] Demo.world) () [] m ∧
    m 8 = some none ∧ m 12 = some none := by
  obtain ⟨m, h1, h2, _⟩ := C32_unzip_array_empty (P := Demo.angry) (q := nibbles) (mv := true) (rs := [8, 12]) Demo.ok_tidy
    Demo.inv Demo.view5 (by decide) (by decide +kernel)
  exact ⟨m, h1, h2 8 (by decide), h2 12 (by decide)⟩

/-- the second of three copies throws: the first is destroyed, nothing else changes -/
example : (Demo.prog true (· == 1) Demo.tidy).Throws Demo.world
    ((Demo.prog true (· == 1) Demo.tidy).unzipArray nibbles 1 false [8, 12, 16] Demo.world)
    [.ctor 8 .copy, .ctorFail 12 .copy, .dtor 8] (upd ((Demo.prog true (· == 1) Demo.tidy).view Demo.world) 1 (some (some 5))) :=
  C32_unzip_array_throws (P := Demo.prog true (· == 1) Demo.tidy) (mv := false) (pre := [8]) (r := 12) (post := [16])
    Demo.ok_tidy nibbles_apart Demo.inv Demo.view1 (by decide) (by decide +kernel) (nibbles_legal (by decide))
    (by
      intro n _ h
      have : n < 0 + 1 := h
      have : n = 0 := by omega
      subst this; rfl) rfl rfl

/-- the constructor of the result may move the elements in reverse order -/
example : ∃ m, Demo.calm.Ends Demo.world (Demo.calm.unzipTuple nibbles 1 true [16, 20] [(12, 20), (8, 16)] Demo.world) ()
    [.ctor 16 .move, .ctor 20 .move, .ctor 12 .move, .ctor 8 .move, .dtor 20, .dtor 16] m ∧
    m 8 = some (some 5) ∧ m 12 = some (some 0) ∧ m 16 = none ∧ m 20 = none := by
  obtain ⟨m, h1, h2, h3, h4⟩ := C32_unzip_tuple_engaged (P := Demo.calm) (mv := true) (rs := [8, 12]) (ts := [16, 20])
    (ms := [(12, 20), (8, 16)]) Demo.ok_tidy nibbles_apart Demo.inv Demo.view1 rfl (.swap ..) (by decide) (by decide +kernel)
    (by decide) (nibbles_legal (by decide)) (fun _ _ _ => rfl)
  exact ⟨m, h1, h2 0 (by decide), h2 1 (by decide), h4 16 (by decide) (by decide), h4 20 (by decide) (by decide)⟩

example : ∃ m, Demo.angry.Ends Demo.world (Demo.angry.unzipTuple nibbles 5 true [16, 20] [(12, 20), (8, 16)] Demo.world) ()
    [] m ∧ m 8 = some none ∧ m 12 = some none ∧ m 16 = none := by
  obtain ⟨m, h1, h2, h3⟩ := C32_unzip_tuple_empty (P := Demo.angry) (q := nibbles) (mv := true) (rs := [8, 12]) (ts := [16, 20])
    (ms := [(12, 20), (8, 16)]) Demo.ok_tidy Demo.inv Demo.view5 rfl (.swap ..) (by decide) (by decide +kernel)
    (by decide)
  exact ⟨m, h1, h2 8 (by decide), h2 12 (by decide), h3 16 (by decide)⟩

/-- the first temporary throws -/
example : Demo.angry.Throws Demo.world (Demo.angry.unzipTuple nibbles 1 true [16, 20] [(8, 16), (12, 20)] Demo.world)
    [.ctorFail 16 .move] (upd (Demo.angry.view Demo.world) 1 (some (some 0))) :=
  C32_unzip_tuple_throws (P := Demo.angry) (mv := true) (pre := []) (r := 16) (post := [20])
    Demo.ok_tidy nibbles_apart Demo.inv Demo.view1 (by decide) (by decide +kernel) (nibbles_legal (by decide))
    (by intro n _ h; exact absurd h (by show ¬ n < 0 + 0; omega)) rfl rfl

/-- the second move into the result throws -/
example : (Demo.prog true (· == 3) Demo.tidy).Throws Demo.world
    ((Demo.prog true (· == 3) Demo.tidy).unzipTuple nibbles 1 true [16, 20] [(8, 16), (12, 20)] Demo.world)
    [.ctor 16 .move, .ctor 20 .move, .ctor 8 .move, .ctorFail 12 .move, .dtor 8, .dtor 20, .dtor 16]
    (upd ((Demo.prog true (· == 3) Demo.tidy).view Demo.world) 1 (some (some 0))) := by
  have hq : ∀ n, n < 3 → (Demo.prog true (· == 3) Demo.tidy).throwsAt n = false := by
    intro n h
    show (n == 3) = false
    simp only [beq_eq_false_iff_ne, ne_eq]; omega
  exact C32_unzip_tuple_move_throws (P := Demo.prog true (· == 3) Demo.tidy) (mv := true) (rs := [8, 12]) (ts := [16, 20])
    (pre := [(8, 16)]) (r := 12) (t := 20) (post := [])
    Demo.ok_tidy nibbles_apart Demo.inv Demo.view1 rfl (.refl _) (by decide) (by decide +kernel) (by decide)
    (nibbles_legal (by decide)) (fun n _ h => hq n (by have : n < 0 + 2 := h; omega)) (fun n _ h => hq n h)
    (Prog.FitAt.flag rfl) rfl rfl

/-- a "tuple" made of two halves -/
def joinNibbles (vs : List Byte) : Byte := vs.getD 0 0 + vs.getD 1 0 <<< 4

theorem joinNibbles_parts (v : Byte) : joinNibbles ((List.range 2).map (nibbles.part · v)) = v := by
  revert v; decide +kernel

/-- `zip(unzip(o))` -/
example : ∃ w', (Demo.calm.unzipTuple nibbles 1 false [16, 20] [(12, 20), (8, 16)] >>=
      fun _ => Demo.calm.zip [(8, true), (12, true)] 13 joinNibbles) Demo.world = .ok () w' ∧ Demo.calm.Inv w' ∧
      Demo.calm.view w' 13 = some (some 5) :=
  C32_zip_unzip (P := Demo.calm) (mv := false) (mz := true) (rs := [8, 12]) (s := 13) Demo.ok_tidy nibbles_apart Demo.inv
    (fun _ => rfl) Demo.view1 (by decide) (fun _ _ => Demo.dom_mk 1 (.inr (.inl rfl))) joinNibbles_parts rfl (.swap ..)
    (by decide) (by decide) (by decide +kernel) (nibbles_legal (by decide))

/-- `unzip(zip(a, b))` where `a` holds 5 and `b` holds 6 -/
example : ∃ w', (Demo.calm.zip [(1, false), (9, true)] 13 joinNibbles >>=
      fun _ => Demo.calm.unzipTuple nibbles 13 true [16, 20] [(12, 20), (8, 16)]) Demo.world = .ok () w' ∧
      Demo.calm.Inv w' ∧ Demo.calm.view w' 8 = some (some 5) ∧ Demo.calm.view w' 12 = some (some 6) := by
  obtain ⟨w', h1, h2, h3⟩ := C32_unzip_zip_engaged (P := Demo.calm) (mv := true) (q := nibbles) (is := [(1, false), (9, true)])
    (vs := [5, 6]) (g := joinNibbles) (r := 13) (rs := [8, 12]) (ts := [16, 20]) (ms := [(12, 20), (8, 16)]) Demo.ok_tidy
    nibbles_apart Demo.inv (fun _ => rfl)
    (fun _ _ => Demo.dom_mk 1 (.inr (.inl rfl))) (by simp [Prog.ZipOK]) Demo.view13 ⟨Demo.view1, Demo.view9, trivial⟩
    (by decide +kernel) rfl rfl (.swap ..) (by decide) (by decide) (by decide +kernel)
    (fun v hv p hp => nibbles_legal (thr := fun _ => false) (rs := [16, 20]) (by decide) v hv p hp)
  exact ⟨w', h1, h2, h3 0 (by decide), h3 1 (by decide)⟩

/-- `unzip(zip(a, b))` where `b` is empty -/
example : ∃ w', (Demo.calm.zip [(1, true), (5, true)] 13 joinNibbles >>=
      fun _ => Demo.calm.unzipTuple nibbles 13 true [16, 20] [(12, 20), (8, 16)]) Demo.world = .ok () w' ∧
      Demo.calm.Inv w' ∧ w'.env = Demo.world.env ∧ ∀ a ∈ [8, 12], Demo.calm.view w' a = some none :=
  C32_unzip_zip_empty (P := Demo.calm) (mv := true) (q := nibbles) (is := [(1, true), (5, true)])
    (g := joinNibbles) (r := 13) (rs := [8, 12]) (ts := [16, 20]) (ms := [(12, 20), (8, 16)]) Demo.ok_tidy Demo.inv
    (fun _ _ => Demo.dom_mk 1 (.inr (.inl rfl))) Demo.view13
    (by
      intro p hp
      rcases List.mem_cons.1 hp with rfl | hp
      · exact ⟨_, Demo.view1⟩
      · cases List.mem_singleton.1 hp; exact ⟨_, Demo.view5⟩)
    ⟨(5, true), by simp, Demo.view5⟩ rfl (.swap ..) (by decide) (by decide) (by decide +kernel)

end Opt
