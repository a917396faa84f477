import Verif.Spec.CodegenLine
import Verif.Lemmas.CodegenText

/-!
# Lemmas about the cleaning of lines
-/

namespace Opt.Run

/-! ## Numbers -/

theorem number_digits {d r : Text} (hd : Digits d) (hr : StartsFree r) : number (d ++ r) = some (value d, r) := by
  have hdig : ∀ c ∈ r.head?, isDigit c = false := by
    intro c hc
    cases h : isDigit c with
    | false => rfl
    | true =>
      have := hr c hc
      rw [isWord, h] at this
      simp at this
  have ht : ∀ {d : Text}, (∀ c ∈ d, isDigit c = true) → (d ++ r).takeWhile isDigit = d ∧ (d ++ r).dropWhile isDigit = r := by
    intro d hd
    induction d with
    | nil =>
      cases r with
      | nil => simp
      | cons x xs => simp [hdig x (by simp)]
    | cons x xs ih =>
      obtain ⟨h1, h2⟩ := ih fun c hc => hd c (List.mem_cons_of_mem _ hc)
      simp [hd x (by simp), h1, h2]
  obtain ⟨h1, h2⟩ := ht hd.2
  unfold number
  simp only [h1, h2]
  rw [if_neg, value_foldl]
  simp only [Bool.or_eq_true, not_or, Bool.not_eq_true]
  refine ⟨by simpa using hd.1, ?_⟩
  cases r with
  | nil => rfl
  | cons x xs => simpa using hr x (by simp)

theorem digit_word {c : Char} (h : isDigit c = true) : isWord c = true := by rw [isWord, h]; simp

/-- no decimal number stands alone inside a text -/
def Mid (t : Text) : Prop :=
  ∀ a d b, t = a ++ d ++ b → a ≠ [] → Digits d → (∃ c ∈ a.getLast?, isWord c = true) ∨ ∃ c ∈ b.head?, isWord c = true

theorem Plain.mid {t : Text} (h : Plain t) : Mid t := fun a d b e _ => h a d b e

/-- no number at the start of a plain text that ends before one -/
theorem number_plain {c : Char} {p t : Text} (hp : Mid (c :: p)) (hc : isWord c = false) (he : EndsFree (c :: p)) (hne : p ≠ []) :
    number (p ++ t) = none := by
  cases hn : number (p ++ t) with
  | none => rfl
  | some x =>
    exfalso
    obtain ⟨n, r⟩ := x
    obtain ⟨d, e, hd, hr⟩ := number_spec hn
    rcases List.append_eq_append_iff.1 e with ⟨as, h1, h2⟩ | ⟨bs, h1, h2⟩
    · -- the whole of `p` is digits: its last character is one
      obtain ⟨x, hx⟩ : ∃ x, p.getLast? = some x := by
        cases h : p.getLast? with
        | none => exact absurd (List.getLast?_eq_none_iff.1 h) hne
        | some x => exact ⟨x, rfl⟩
      have hxd : isDigit x = true := hd.2 x (by rw [h1]; exact List.mem_append_left _ (List.mem_of_getLast? hx))
      have := he x (by rw [List.getLast?_cons_of_ne_nil hne]; exact hx)
      rw [digit_word hxd] at this
      cases this
    · by_cases hb : bs = []
      · subst hb
        rw [List.append_nil] at h1
        obtain ⟨x, hx⟩ : ∃ x, p.getLast? = some x := by
          cases h : p.getLast? with
          | none => exact absurd (List.getLast?_eq_none_iff.1 h) hne
          | some x => exact ⟨x, rfl⟩
        have hxd : isDigit x = true := hd.2 x (by rw [← h1]; exact List.mem_of_getLast? hx)
        have := he x (by rw [List.getLast?_cons_of_ne_nil hne]; exact hx)
        rw [digit_word hxd] at this
        cases this
      · rcases hp [c] d bs (by rw [h1]; simp) (by simp) hd with ⟨x, hx, hxw⟩ | ⟨x, hx, hxw⟩
        · simp only [List.getLast?_singleton, Option.mem_def, Option.some.injEq] at hx
          subst hx; rw [hc] at hxw; cases hxw
        · have := hr x (by
            rw [h2]
            cases bs with
            | nil => exact absurd rfl hb
            | cons y ys => simpa using hx)
          rw [this] at hxw; cases hxw

theorem Mid.tail {c : Char} {p : Text} (h : Mid (c :: p)) : Mid p := by
  intro a d b e ha hd
  have := h (c :: a) d b (by rw [e]; simp) (by simp) hd
  rwa [List.getLast?_cons_of_ne_nil ha] at this

theorem EndsFree.tail {c : Char} {p : Text} (h : EndsFree (c :: p)) (hp : p ≠ []) : EndsFree p := by
  intro x hx
  exact h x (by rw [List.getLast?_cons_of_ne_nil hp]; exact hx)

/-- the text after a number: its first character belongs to the match -/
def afterNumber (k : Nat) : Text → Text
  | [] => []
  | x :: xs => x :: hexFrom k xs

/-- up to the character after the first number -/
theorem hexFrom_number {d r : Text} (hd : Digits d) (hr : StartsFree r) : ∀ {q : Text} {k : Nat}, q ≠ [] → Mid q → EndsFree q →
    (q ++ (d ++ r)).length ≤ k → ∃ k', r.length ≤ k' + 1 ∧ hexFrom k (q ++ (d ++ r)) = q ++ (hexOf (value d) ++ afterNumber k' r)
  | [], _, h, _, _, _ => absurd rfl h
  | c :: q, 0, _, _, _, hk => by simp at hk
  | c :: q, k + 1, _, hm, he, hk => by
    by_cases hq : q = []
    · subst hq
      have hc : isWord c = false := he c (by simp)
      refine ⟨k, by simp at hk; omega, ?_⟩
      simp only [List.cons_append, List.nil_append, hexFrom, hc, Bool.false_eq_true, if_false, number_digits hd hr]
      cases r <;> simp [afterNumber]
    · have hk' : (q ++ (d ++ r)).length ≤ k := by
        simp only [List.cons_append, List.length_cons] at hk
        omega
      obtain ⟨k', h1, h2⟩ := hexFrom_number hd hr hq hm.tail (he.tail hq) hk'
      refine ⟨k', h1, ?_⟩
      simp only [List.cons_append, hexFrom]
      split
      · rw [h2]
      · rename_i hc
        simp only [Bool.not_eq_true] at hc
        rw [number_plain hm hc he hq, h2]

/-- the numbers of a row, in hexadecimal notation -/
def hexRest (l : List (Text × Text)) : Text := l.flatMap fun x => '0' :: 'x' :: Nat.toDigits 16 (value x.1) ++ x.2

def rawRest (l : List (Text × Text)) : Text := l.flatMap fun x => x.1 ++ x.2

theorem restOk_head {x : Text × Text} {l : List (Text × Text)} (h : Row.RestOk (x :: l)) :
    Digits x.1 ∧ Plain x.2 ∧ StartsFree x.2 ∧ (l ≠ [] → EndsFree x.2 ∧ 2 ≤ x.2.length) ∧ Row.RestOk l := by
  cases l with
  | nil => exact ⟨h.1, h.2.1, h.2.2, fun e => absurd rfl e, trivial⟩
  | cons y l => exact ⟨h.1, h.2.1, h.2.2.1, fun _ => ⟨h.2.2.2.1, h.2.2.2.2.1⟩, h.2.2.2.2.2⟩

theorem starts_rest {x : Text × Text} {l : List (Text × Text)} (h : Row.RestOk (x :: l)) : StartsFree (x.2 ++ rawRest l) := by
  obtain ⟨-, -, h3, h4, -⟩ := restOk_head h
  cases hx : x.2 with
  | nil =>
    cases l with
    | nil => intro c hc; simp [rawRest] at hc
    | cons y l => have := (h4 (by simp)).2; rw [hx] at this; simp at this
  | cons c p =>
    intro y hy
    refine h3 y ?_
    rw [hx]
    simpa using hy

theorem hexFrom_row : ∀ {l : List (Text × Text)} {q : Text} {k : Nat}, Row.RestOk l → Mid q → (l ≠ [] → q ≠ [] ∧ EndsFree q) →
    (q ++ rawRest l).length ≤ k → hexFrom k (q ++ rawRest l) = q ++ hexRest l
  | [], q, k, _, hm, _, _ => by
    simp only [rawRest, hexRest, List.flatMap_nil, List.append_nil]
    exact hexFrom_neat k hm
  | x :: l, q, k, h, hm, hq, hk => by
    obtain ⟨h1, h2, h3, h4, h5⟩ := restOk_head h
    obtain ⟨hq1, hq2⟩ := hq (by simp)
    have e : rawRest (x :: l) = x.1 ++ (x.2 ++ rawRest l) := by simp [rawRest]
    rw [e] at hk ⊢
    obtain ⟨k', hk', he⟩ := hexFrom_number h1 (starts_rest h) hq1 hm hq2 hk
    rw [he]
    have e2 : hexRest (x :: l) = hexOf (value x.1) ++ (x.2 ++ hexRest l) := by simp [hexRest, hexOf]
    rw [e2]
    congr 2
    cases hx : x.2 with
    | nil =>
      cases l with
      | nil => simp [rawRest, hexRest, afterNumber]
      | cons y l => have := (h4 (by simp)).2; rw [hx] at this; simp at this
    | cons c p =>
      simp only [List.cons_append, afterNumber]
      rw [hx] at h2 h4 hk'
      rw [hexFrom_row h5 h2.mid.tail ?_ ?_]
      · intro hl
        have := (h4 hl).2
        have hp : p ≠ [] := by
          rintro rfl
          simp at this
        exact ⟨hp, (h4 hl).1.tail hp⟩
      · simp only [List.cons_append, List.length_cons] at hk'
        omega

theorem hexAll_row {r : Row} (h : r.Ok) : hexAll r.text = r.hex := by
  obtain ⟨head, rest⟩ := r
  cases rest with
  | nil =>
    have := hexAll_neat h.head
    simpa [Row.text, Row.hex] using this
  | cons x l =>
    obtain ⟨h1, h2, h3, h4, h5⟩ := restOk_head h.rest
    have e : (Row.mk head (x :: l)).text = head ++ (x.1 ++ (x.2 ++ rawRest l)) := by simp [Row.text, rawRest]
    have e2 : (Row.mk head (x :: l)).hex = head ++ (hexOf (value x.1) ++ (x.2 ++ hexRest l)) := by simp [Row.hex, hexRest, hexOf]
    rw [e2]
    by_cases hh : head = []
    · subst hh
      rw [e]
      simp only [List.nil_append, hexAll, number_digits h1 (starts_rest h.rest)]
      cases hx : x.2 with
      | nil =>
        cases l with
        | nil => simp [rawRest, hexRest]
        | cons y l => have := (h4 (by simp)).2; rw [hx] at this; simp at this
      | cons c p =>
        simp only [List.cons_append]
        rw [hx] at h2 h4
        rw [hexFrom_row h5 h2.mid.tail ?_ ?_]
        · intro hl
          have := (h4 hl).2
          have hp : p ≠ [] := by
            rintro rfl
            simp at this
          exact ⟨hp, (h4 hl).1.tail hp⟩
        · simp; omega
    · have hn : number (head ++ (x.1 ++ (x.2 ++ rawRest l))) = none := by
        cases hn : number (head ++ (x.1 ++ (x.2 ++ rawRest l))) with
        | none => rfl
        | some y =>
          exfalso
          obtain ⟨n, r⟩ := y
          obtain ⟨d, e, hd, hr⟩ := number_spec hn
          have hlast : ∀ c, head.getLast? = some c → isDigit c = true → False := fun c hc hdc => by
            have := h.ends (by simp) c hc
            rw [digit_word hdc] at this; cases this
          obtain ⟨y, hy⟩ : ∃ y, head.getLast? = some y := by
            cases h : head.getLast? with
            | none => exact absurd (List.getLast?_eq_none_iff.1 h) hh
            | some x => exact ⟨x, rfl⟩
          rcases List.append_eq_append_iff.1 e with ⟨as, e1, _⟩ | ⟨bs, e1, e3⟩
          · exact hlast y hy (hd.2 y (by rw [e1]; exact List.mem_append_left _ (List.mem_of_getLast? hy)))
          · by_cases hb : bs = []
            · subst hb
              rw [List.append_nil] at e1
              exact hlast y hy (hd.2 y (by rw [← e1]; exact List.mem_of_getLast? hy))
            · rcases h.head [] d bs (by rw [List.nil_append]; exact e1) hd with ⟨z, hz, _⟩ | ⟨z, hz, hzw⟩
              · simp at hz
              · have := hr z (by
                  rw [e3]
                  cases bs with
                  | nil => exact absurd rfl hb
                  | cons y ys => simpa using hz)
                rw [this] at hzw; cases hzw
      have e3 : (Row.mk head (x :: l)).text = head ++ rawRest (x :: l) := by simp [Row.text, rawRest]
      have hf := hexFrom_row (k := (Row.mk head (x :: l)).text.length) h.rest h.head.mid (fun _ => ⟨hh, h.ends (by simp)⟩)
        (by rw [e3]; exact Nat.le_refl _)
      unfold hexAll
      rw [e, hn]
      simp only
      rw [← e, ← e3] at *
      rw [hf]
      simp [hexRest, hexOf]

/-! ## White space and comments -/

theorem squeeze_solid {t : Text} : ∀ {w : Text}, (∀ c ∈ w, isWs c = false) → squeeze (w ++ t) = w ++ squeeze t
  | [], _ => rfl
  | c :: w, h => by
    have ih := squeeze_solid (t := t) (w := w) fun c hc => h c (List.mem_cons_of_mem _ hc)
    simp [squeeze, h c (by simp), ih]

theorem squeeze_gap {t : Text} (ht : ∀ c ∈ t.head?, isWs c = false) : ∀ {g : Text}, Gap g → squeeze (g ++ t) = ' ' :: squeeze t
  | [], h => absurd rfl h.1
  | [c], h => by
    have hc := h.2 c (by simp)
    simp only [List.cons_append, List.nil_append, squeeze, hc, if_true]
    cases t with
    | nil => rfl
    | cons x xs => simp [ht x (by simp)]
  | c :: d :: g, h => by
    have ih := squeeze_gap (t := t) ht (g := d :: g) ⟨by simp, fun x hx => h.2 x (List.mem_cons_of_mem _ hx)⟩
    have hc := h.2 c (by simp)
    have hd := h.2 d (by simp)
    simp only [List.cons_append] at ih ⊢
    rw [squeeze]
    simp only [hc, hd, List.head?_cons, Option.map_some, Option.getD_some, if_true]
    exact ih

theorem head_solid {w t : Text} (h : Solid w) : ∃ c, (w ++ t).head? = some c ∧ isWs c = false := by
  obtain ⟨h1, h2⟩ := h
  cases w with
  | nil => exact absurd rfl h1
  | cons c w => exact ⟨c, rfl, (h2 c (by simp)).1⟩

theorem squeeze_words {t : Text} : ∀ {l : List (Text × Text)}, (∀ x ∈ l, Gap x.1 ∧ Solid x.2) →
    squeeze (l.flatMap (fun x => x.1 ++ x.2) ++ t) = l.flatMap (fun x => ' ' :: x.2) ++ squeeze t
  | [], _ => rfl
  | x :: l, h => by
    obtain ⟨hg, hs⟩ := h x (by simp)
    have ih := squeeze_words (t := t) fun y hy => h y (List.mem_cons_of_mem _ hy)
    simp only [List.flatMap_cons, List.append_assoc]
    rw [squeeze_gap ?_ hg, squeeze_solid fun c hc => (hs.2 c hc).1, ih]
    · simp
    · intro c hc
      obtain ⟨y, hy, hw⟩ := head_solid (t := List.flatMap (fun x => x.1 ++ x.2) l ++ t) hs
      rw [hy] at hc
      simp only [Option.mem_def, Option.some.injEq] at hc
      exact hc ▸ hw

/-- the words are there, without white space at the ends -/
theorem words_ends {l : RawLine} (h : l.Ok) {f : Text × Text → Text} (hf : ∀ x ∈ l.more, ∃ g, f x = g ++ x.2) :
    (∃ c ∈ (l.first ++ l.more.flatMap f).head?, isWs c = false) ∧ ∃ c ∈ (l.first ++ l.more.flatMap f).getLast?, isWs c = false := by
  constructor
  · obtain ⟨c, hc, hw⟩ := head_solid (t := l.more.flatMap f) h.first
    exact ⟨c, hc, hw⟩
  · have key : ∀ (m : List (Text × Text)) (w : Text), Solid w → (∀ x ∈ m, Solid x.2 ∧ ∃ g, f x = g ++ x.2) →
        ∃ c ∈ (w ++ m.flatMap f).getLast?, isWs c = false := by
      intro m
      induction m with
      | nil =>
        intro w hw _
        simp only [List.flatMap_nil, List.append_nil]
        obtain ⟨c, hc⟩ : ∃ c, w.getLast? = some c := by
          cases h : w.getLast? with
          | none => exact absurd (List.getLast?_eq_none_iff.1 h) hw.1
          | some x => exact ⟨x, rfl⟩
        exact ⟨c, hc, (hw.2 c (List.mem_of_getLast? hc)).1⟩
      | cons x m ih =>
        intro w hw hm
        obtain ⟨hx, g, hg⟩ := hm x (by simp)
        obtain ⟨c, hc, hcw⟩ := ih x.2 hx fun y hy => hm y (List.mem_cons_of_mem _ hy)
        refine ⟨c, ?_, hcw⟩
        simp only [List.flatMap_cons, hg]
        have : w ++ (g ++ x.2 ++ m.flatMap f) = (w ++ g) ++ (x.2 ++ m.flatMap f) := by simp
        rw [this]
        simp only [Option.mem_def] at hc ⊢
        rw [List.getLast?_append, hc]
        rfl
    exact key _ _ h.first fun x hx => ⟨(h.more x hx).2, hf x hx⟩

theorem before_mark {a t : Text} (h : '#' ∉ a) : before '#' (a ++ '#' :: t) = a := by
  induction a with
  | nil => rfl
  | cons x a ih =>
    simp only [List.mem_cons, not_or] at h
    have := ih h.2
    simp only [before] at this ⊢
    rw [List.cons_append, List.takeWhile_cons, if_pos (by simpa using fun e => h.1 e.symm), this]

theorem words_mark {l : RawLine} (h : l.Ok) : '#' ∉ l.words := by
  simp only [RawLine.words, List.mem_append, List.mem_flatMap, not_or, not_exists, not_and]
  refine ⟨fun hc => (h.first.2 _ hc).2 rfl, fun x hx hc => ?_⟩
  rcases List.mem_cons.1 hc with e | hc
  · exact absurd e (by decide)
  · exact ((h.more x hx).2.2 _ hc).2 rfl

theorem strip_words {l : RawLine} (h : l.Ok) {b : Text} (hb : ∀ c ∈ b, isWs c = true) : strip (l.words ++ b) = l.words := by
  obtain ⟨h1, h2⟩ := words_ends h (f := fun x => ' ' :: x.2) fun x _ => ⟨[' '], rfl⟩
  have := strip_pad (a := []) (b := b) (t := l.words) (by simp) hb h1 h2
  simpa using this

theorem rstrip_mark {a c : Text} : ∃ c', rstrip (a ++ '#' :: c) = a ++ '#' :: c' ∧ ∃ s, c = c' ++ s := by
  unfold rstrip
  have : ∀ r : Text, ∃ r', (r ++ '#' :: a.reverse).dropWhile isWs = r' ++ '#' :: a.reverse ∧ ∃ s, r = s ++ r' := by
    intro r
    induction r with
    | nil => exact ⟨[], by simp [show isWs '#' = false from by decide], [], rfl⟩
    | cons x r ih =>
      by_cases hx : isWs x = true
      · obtain ⟨r', h1, s, h2⟩ := ih
        exact ⟨r', by simp [hx, h1], x :: s, by simp [h2]⟩
      · exact ⟨x :: r, by simp [hx], [], rfl⟩
  obtain ⟨r', h1, s, h2⟩ := this c.reverse
  refine ⟨r'.reverse, ?_, s.reverse, ?_⟩
  · rw [List.reverse_append, List.reverse_cons, List.append_assoc, List.singleton_append, h1]
    simp
  · rw [← List.reverse_append, ← h2, List.reverse_reverse]

/-- what the script makes of a line -/
theorem cleanLine_raw {l : RawLine} (h : l.Ok) : cleanLine l.full = some (hexAll l.words) := by
  let W := l.first ++ l.more.flatMap fun x => x.1 ++ x.2
  obtain ⟨hW1, hW2⟩ : (∃ c ∈ W.head?, isWs c = false) ∧ ∃ c ∈ W.getLast?, isWs c = false :=
    words_ends h (f := fun x => x.1 ++ x.2) fun x _ => ⟨x.1, rfl⟩
  -- the text after stripping, and what is left of it before the comment
  have key : ∃ i, strip l.full = i ∧ (∃ a b, l.full = a ++ i ++ b) ∧ i.isEmpty = false ∧
      strip (before '#' (squeeze i)) = l.words := by
    have hsq : ∀ t, squeeze (W ++ t) = l.words ++ squeeze t := by
      intro t
      show squeeze (l.first ++ _ ++ t) = _
      rw [List.append_assoc, squeeze_solid fun c hc => (h.first.2 c hc).1, squeeze_words h.more]
      simp [RawLine.words]
    have hne : ∀ t, (W ++ t).isEmpty = false := by
      intro t
      obtain ⟨c, hc, -⟩ := hW1
      cases hw : W with
      | nil => rw [hw] at hc; simp at hc
      | cons x xs => rfl
    cases hcom : l.comment with
    | none =>
      have e : l.full = l.before ++ W ++ l.after := by simp [RawLine.full, hcom, W]
      refine ⟨W, ?_, ⟨l.before, l.after, e⟩, by simpa using hne [], ?_⟩
      · rw [e]; exact strip_pad h.before.2 h.after hW1 hW2
      · have := hsq []
        rw [List.append_nil] at this
        rw [this, show squeeze [] = [] from rfl, List.append_nil, before_none (words_mark h)]
        have := strip_words h (b := []) (by simp)
        simpa using this
    | some c =>
      have e : l.full = l.before ++ ((W ++ l.after) ++ '#' :: c) := by simp [RawLine.full, hcom, W]
      obtain ⟨c', hc', s, hs⟩ := rstrip_mark (a := W ++ l.after) (c := c)
      refine ⟨(W ++ l.after) ++ '#' :: c', ?_, ⟨l.before, s, by rw [e, hs]; simp⟩, by simpa using hne (l.after ++ '#' :: c'), ?_⟩
      · rw [strip, e, lstrip, dropWhile_ws h.before.2, dropWhile_ink, hc']
        obtain ⟨x, hx, hw⟩ := hW1
        refine ⟨x, ?_, hw⟩
        cases hw' : W with
        | nil => rw [hw'] at hx; simp at hx
        | cons y ys => rw [hw'] at hx; simpa using hx
      · rw [List.append_assoc, hsq]
        by_cases ha : l.after = []
        · rw [ha, List.nil_append]
          have : squeeze ('#' :: c') = '#' :: squeeze c' := by
            simp [squeeze, show isWs '#' = false from by decide]
          rw [this, before_mark (words_mark h)]
          have := strip_words h (b := []) (by simp)
          simpa using this
        · have : squeeze (l.after ++ '#' :: c') = ' ' :: '#' :: squeeze c' := by
            rw [squeeze_gap ?_ ⟨ha, h.after⟩]
            · simp [squeeze, show isWs '#' = false from by decide]
            · intro x hx
              simp only [List.head?_cons, Option.mem_def, Option.some.injEq] at hx
              subst hx; decide
          rw [this, show l.words ++ ' ' :: '#' :: squeeze c' = (l.words ++ [' ']) ++ '#' :: squeeze c' from by simp, before_mark ?_]
          · exact strip_words h (by simp [isWs])
          · simp only [List.mem_append, List.mem_singleton, not_or]
            exact ⟨words_mark h, by decide⟩
  obtain ⟨i, hi, ⟨a, b, hab⟩, hne, hw⟩ := key
  have hk : ∀ p : Text, (∀ a b, l.full ≠ a ++ p ++ b) → contains p i = false := by
    intro p hp
    cases hc : contains p i with
    | false => rfl
    | true =>
      obtain ⟨a', b', e⟩ := contains_iff.1 hc
      exact absurd (by rw [hab, e]; simp) (hp (a ++ a') (b' ++ b))
  have hp : (txt"Disassembly of section").isPrefixOf i = false := by
    cases hc : (txt"Disassembly of section").isPrefixOf i with
    | false => rfl
    | true =>
      rw [List.isPrefixOf_iff_prefix, section_text] at hc
      obtain ⟨b', hb'⟩ := hc
      exact absurd (by rw [hab, ← hb']; simp) (h.code a (b' ++ b))
  have hwne : l.words.isEmpty = false := by
    obtain ⟨c, hc, -⟩ := head_solid (t := l.more.flatMap fun x => ' ' :: x.2) h.first
    cases hl : l.words with
    | nil => rw [RawLine.words] at hl; rw [hl] at hc; simp at hc
    | cons x xs => rfl
  unfold cleanLine
  simp only [hi, hne, hp, hk _ fun a b => (h.kept a b).1, hk _ fun a b => (h.kept a b).2.1, hk _ fun a b => (h.kept a b).2.2, hw, hwne,
    Bool.or_false, Bool.false_eq_true, if_false]

theorem funName_raw {l : RawLine} (h : l.Ok) : funName l.full = none := by
  obtain ⟨hb, hw⟩ := h.before
  cases hl : l.before with
  | nil => exact absurd hl hb
  | cons x xs =>
    have hx : isWs x = true := hw x (by rw [hl]; simp)
    unfold funName
    split
    · rename_i r e
      simp only [RawLine.full, hl, List.cons_append, List.cons.injEq] at e
      rw [e.1] at hx
      exact absurd hx (by decide)
    · rfl

end Opt.Run
