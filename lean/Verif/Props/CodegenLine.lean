import Verif.Lemmas.CodegenLine

/-!
# C87: lines of code as the disassembler writes them
-/

namespace Opt.Run

/-- **C87**: a line of code in the output of the disassembler, with white space of any kind between its words, maybe a comment, and any
decimal numbers, counts as its words with single blanks, without the comment, and with the numbers in hexadecimal notation. -/
theorem C87_line (l : RawLine) (hl : l.Ok) (r : Row) (hr : r.Ok) (h : l.words = r.text) (name : Text) (code rest : List Text) :
    parseDisasm (some (name, code)) (l.full :: rest) = parseDisasm (some (name, code ++ [r.hex])) rest := by
  simp only [parseDisasm, funName_raw hl, cleanLine_raw hl, h, hexAll_row hr, Option.toList_some]

/-! ## A concrete case -/

/-- `  mov<tab>dword ptr [rdi + 16], 255<tab> # <x>` -/
def rawMov : RawLine :=
  ⟨txt"  ", txt"mov", [(['\t'], txt"dword"), (txt" ", txt"ptr"), (txt" ", txt"[rdi"), (txt" ", txt"+"), (txt"  ", txt"16],"), (txt" ", txt"255")],
    ['\t', ' '], some (txt" <x>")⟩

def rowMov : Row := ⟨txt"mov dword ptr [rdi + ", [(txt"16", txt"], "), (txt"255", [])]⟩

/-- every split of a text, for checking `Plain` -/
def plainB (t : Text) : Bool :=
  (List.range (t.length + 1)).all fun i => (List.range (t.length + 1 - i)).all fun n =>
    n == 0 || !((t.drop i).take n).all isDigit || ((t.take i).getLast?.map isWord).getD false || (((t.drop i).drop n).head?.map isWord).getD false

theorem plain_of_check {t : Text} (h : plainB t = true) : Plain t := by
  intro a d b e hd
  simp only [plainB, List.all_eq_true, List.mem_range] at h
  have hlen : t.length = a.length + d.length + b.length := by rw [e]; simp; omega
  have := h a.length (by omega) d.length (by omega)
  have e1 : t.take a.length = a := by rw [e, List.append_assoc, List.take_left]
  have e2 : t.drop a.length = d ++ b := by rw [e, List.append_assoc, List.drop_left]
  have hd0 : (d.length == 0) = false := by
    rw [beq_eq_false_iff_ne]; exact fun h => hd.1 (List.length_eq_zero_iff.1 h)
  rw [e1, e2, List.take_left, List.drop_left, hd0, List.all_eq_true.2 hd.2] at this
  simp only [Bool.not_true, Bool.or_false, Bool.false_or, Bool.or_eq_true] at this
  rcases this with h | h
  · left
    cases hg : a.getLast? with
    | none => rw [hg] at h; simp at h
    | some c => exact ⟨c, rfl, by rw [hg] at h; simpa using h⟩
  · right
    cases hg : b.head? with
    | none => rw [hg] at h; simp at h
    | some c => exact ⟨c, rfl, by rw [hg] at h; simpa using h⟩

theorem free_of_check {o : Option Char} (h : o.all (fun c => !isWord c) = true) : ∀ c ∈ o, isWord c = false := by
  intro c hc
  cases hc
  simpa using h

theorem rowMov_ok : rowMov.Ok :=
  ⟨plain_of_check (by decide), fun _ => free_of_check (by decide),
    ⟨⟨by decide, by decide⟩, plain_of_check (by decide), free_of_check (by decide), free_of_check (by decide), by decide,
      ⟨⟨by decide, by decide⟩, plain_of_check (by decide), free_of_check (by decide)⟩⟩⟩

theorem not_infix {t p : Text} (h : contains p t = false) (a b : Text) : t ≠ a ++ p ++ b := by
  intro e
  rw [contains_iff.2 ⟨a, b, e⟩] at h
  cases h

theorem rawMov_ok : rawMov.Ok where
  before := ⟨by decide, by decide⟩
  first := ⟨by decide, by decide⟩
  more := by
    intro x hx
    simp only [rawMov, List.mem_cons, List.not_mem_nil, or_false] at hx
    rcases hx with rfl | rfl | rfl | rfl | rfl | rfl <;> exact ⟨⟨by decide, by decide⟩, by decide, by decide⟩
  after := by decide
  kept := fun a b => ⟨not_infix (by decide +kernel) a b, not_infix (by decide +kernel) a b, not_infix (by decide +kernel) a b⟩
  code := fun a b => by rw [← section_text]; exact not_infix (by decide +kernel) a b

example : parseDisasm (some (txt"f", [])) [rawMov.full] = [(txt"f", [txt"mov dword ptr [rdi + 0x10], 0xff"])] :=
  (C87_line rawMov rawMov_ok rowMov rowMov_ok (by decide) (txt"f") [] []).trans (by decide +kernel)

end Opt.Run
