import Verif.Spec.Codegen
import Verif.Lemmas.Bytes

/-!
# Memory of the machine
-/

namespace Opt.X86

open Opt.Codegen

theorem read_length (m : Mem) (a : BitVec 64) (n : Nat) : (read m a n).length = n := by simp [read]

theorem read_get (m : Mem) (a : BitVec 64) (n k : Nat) :
    (read m a n)[k]? = if k < n then some (m (a + BitVec.ofNat 64 k)) else none := by
  simp only [read, List.getElem?_map]
  by_cases h : k < n
  · rw [List.getElem?_range h, if_pos h]; rfl
  · rw [List.getElem?_eq_none (by simpa using h), if_neg h]; rfl

theorem wr_get {bs src : Bytes} {d k : Nat} (h : d + src.length ≤ bs.length) :
    (wr bs d src)[k]? = if d ≤ k ∧ k < d + src.length then src[k - d]? else bs[k]? := by
  have hd : (bs.take d).length = d := by simp; omega
  rw [wr, List.append_assoc]
  by_cases h1 : k < d
  · rw [List.getElem?_append_left (by omega), List.getElem?_take, if_pos h1, if_neg (by omega)]
  · rw [List.getElem?_append_right (by omega), hd]
    by_cases h2 : k < d + src.length
    · rw [List.getElem?_append_left (by omega), if_pos ⟨by omega, h2⟩]
    · rw [List.getElem?_append_right (by omega), List.getElem?_drop, if_neg (by omega)]
      congr 1; omega

theorem addr_sub (a : BitVec 64) (k d : Nat) (hk : k < 2 ^ 64) (hd : d ≤ k) :
    (a + BitVec.ofNat 64 k - (a + BitVec.ofNat 64 d)).toNat = k - d := by
  have : a + BitVec.ofNat 64 k - (a + BitVec.ofNat 64 d) = BitVec.ofNat 64 (k - d) := by
    apply BitVec.eq_of_toNat_eq
    have := a.isLt
    simp only [BitVec.toNat_sub, BitVec.toNat_add, BitVec.toNat_ofNat]
    omega
  rw [this, BitVec.toNat_ofNat, Nat.mod_eq_of_lt (by omega)]

theorem addr_sub' (a : BitVec 64) (k d : Nat) (hd : d < 2 ^ 64) (hk : k < d) :
    (a + BitVec.ofNat 64 k - (a + BitVec.ofNat 64 d)).toNat = 2 ^ 64 - d + k := by
  have := a.isLt
  simp only [BitVec.toNat_sub, BitVec.toNat_add, BitVec.toNat_ofNat]
  omega

/-- storing inside an object -/
theorem read_write (m : Mem) (a : BitVec 64) {d N : Nat} {bs : Bytes} (h : d + bs.length ≤ N) (hN : N < 2 ^ 64) :
    read (write m (a + BitVec.ofNat 64 d) bs) a N = wr (read m a N) d bs := by
  apply List.ext_getElem?
  intro k
  rw [wr_get (by rw [read_length]; exact h), read_get, read_get]
  by_cases hk : k < N
  · simp only [if_pos hk]
    by_cases h1 : d ≤ k
    · simp only [write, addr_sub a k d (by omega) h1]
      by_cases h2 : k < d + bs.length
      · rw [if_pos ⟨h1, h2⟩, List.getElem?_eq_getElem (by omega)]; rfl
      · rw [if_neg (by omega), List.getElem?_eq_none (by omega)]; rfl
    · simp only [write, addr_sub' a k d (by omega) (by omega)]
      rw [if_neg (by omega), List.getElem?_eq_none (by omega)]; rfl
  · rw [if_neg hk, if_neg (by omega), if_neg hk]

/-- storing does not change other addresses -/
theorem write_other (m : Mem) {a x : BitVec 64} {d N : Nat} {bs : Bytes} (h : d + bs.length ≤ N) (hN : N < 2 ^ 64) (hx : ¬ Within a N x) :
    write m (a + BitVec.ofNat 64 d) bs x = m x := by
  simp only [write]
  rw [List.getElem?_eq_none]
  · rfl
  · unfold Within at hx
    have := a.isLt
    have := x.isLt
    simp only [BitVec.toNat_sub, BitVec.toNat_add, BitVec.toNat_ofNat] at *
    omega

/-- reading elsewhere -/
theorem read_write_other (m : Mem) {a b : BitVec 64} {n : Nat} {bs : Bytes}
    (h : ∀ k, k < n → ¬ Within a bs.length (b + BitVec.ofNat 64 k)) : read (write m a bs) b n = read m b n := by
  simp only [read, List.map_inj_left, List.mem_range]
  intro k hk
  have := h k hk
  simp only [Within] at this
  simp only [write]
  rw [List.getElem?_eq_none (by omega)]
  rfl

/-- a value read from memory and stored again -/
theorem value_read (m : Mem) (a : BitVec 64) {n : Nat} (hn : n ≤ 8) :
    leBytes n (BitVec.ofNat 64 (leVal (read m a n))).toNat = read m a n := by
  have h := leVal_lt (read m a n)
  rw [read_length] at h
  have : (256 : Nat) ^ n ≤ 256 ^ 8 := Nat.pow_le_pow_right (by decide) hn
  rw [BitVec.toNat_ofNat, Nat.mod_eq_of_lt (by omega)]
  have := leBytes_leVal (read m a n)
  rwa [read_length] at this

theorem read_add (m : Mem) (a : BitVec 64) (n k : Nat) :
    read m a n ++ read m (a + BitVec.ofNat 64 n) k = read m a (n + k) := by
  simp only [read, List.range_add, List.map_append, List.map_map, List.append_cancel_left_eq, List.map_inj_left]
  intro x _
  simp [BitVec.add_assoc, BitVec.ofNat_add]

/-- the stores of a list, one after the other, at offsets of `a` -/
def stores (a : BitVec 64) (ws : List (Nat × Bytes)) (m : Mem) : Mem :=
  ws.foldl (fun m w => write m (a + BitVec.ofNat 64 w.1) w.2) m

/-- the same stores in the bytes of an object -/
def puts (ws : List (Nat × Bytes)) (bs : Bytes) : Bytes := ws.foldl (fun b w => wr b w.1 w.2) bs

theorem read_stores (a : BitVec 64) {N : Nat} (hN : N < 2 ^ 64) : ∀ (ws : List (Nat × Bytes)) (m : Mem),
    (∀ w ∈ ws, w.1 + w.2.length ≤ N) → read (stores a ws m) a N = puts ws (read m a N)
  | [], _, _ => rfl
  | w :: ws, m, h => by
    simp only [stores, puts, List.foldl_cons]
    have := read_stores a hN ws (write m (a + BitVec.ofNat 64 w.1) w.2) fun x hx => h x (List.mem_cons_of_mem _ hx)
    simp only [stores, puts] at this
    rw [this, read_write m a (h w List.mem_cons_self) hN]

theorem stores_other {a x : BitVec 64} {N : Nat} (hN : N < 2 ^ 64) (hx : ¬ Within a N x) : ∀ (ws : List (Nat × Bytes)) (m : Mem),
    (∀ w ∈ ws, w.1 + w.2.length ≤ N) → stores a ws m x = m x
  | [], _, _ => rfl
  | w :: ws, m, h => by
    have := stores_other hN hx ws (write m (a + BitVec.ofNat 64 w.1) w.2) fun y hy => h y (List.mem_cons_of_mem _ hy)
    simp only [stores, List.foldl_cons] at this ⊢
    rw [this, write_other m (h w List.mem_cons_self) hN hx]

/-- code that only stores in the object -/
theorem modifies_of {T : Ty} {op : Prog Bytes → M World Unit} {l : Listing} (ws : List (Nat × Bytes)) (hN : objSize T < 2 ^ 64)
    (hw : ∀ w ∈ ws, w.1 + w.2.length ≤ objSize T)
    (hrun : ∀ s, ∃ s', run l.code s = some s' ∧ s'.reg .rsp = s.reg .rsp ∧ s'.mem = stores (arg0 l.win s) ws s.mem)
    (hm : ∀ P w o, Sample T P → w.mem 0 = some o → o.bytes.length = objSize T → Gives T (op P w) w (puts ws o.bytes)) :
    Modifies T op l := by
  intro s
  obtain ⟨s', h1, h2, h3⟩ := hrun s
  refine ⟨s', h1, ⟨h2, fun x hx _ => ?_⟩, fun P w o hP ho hb => ?_⟩
  · rw [h3, stores_other hN hx ws _ hw]
  · rw [h3, read_stores _ hN ws _ hw, ← hb]
    exact hm P w o hP ho (by rw [hb, read_length])

/-- code that only stores in the result -/
theorem makes_of_mem {T : Ty} {op : Prog Bytes → M World Unit} {l : Listing} (ws : List (Nat × Bytes)) (hr : inRegs l.win T = false)
    (hN : objSize T < 2 ^ 64) (hw : ∀ w ∈ ws, w.1 + w.2.length ≤ objSize T)
    (hrun : ∀ s, ∃ s', run l.code s = some s' ∧ s'.reg .rsp = s.reg .rsp ∧ s'.reg .rax = arg0 l.win s ∧
      s'.mem = stores (arg0 l.win s) ws s.mem)
    (hm : ∀ P w g, Sample T P → (∀ n, P.garbage 0 n = g) → g.length = objSize T → w.mem 0 = none → Gives T (op P w) w (puts ws g)) :
    Makes T op l := by
  intro s
  obtain ⟨s', h1, h2, h3, h4⟩ := hrun s
  refine ⟨s', h1, ⟨h2, fun x hx _ => ?_⟩, fun _ => h3, read s.mem (arg0 l.win s) (objSize T), read_length _ _ _, fun P w hP hg h0 => ?_⟩
  · simp only [hr, Bool.false_eq_true, if_false] at hx
    rw [h4, stores_other hN hx ws _ hw]
  · simp only [returned, hr, Bool.false_eq_true, if_false]
    rw [h4, read_stores _ hN ws _ hw]
    exact hm P w _ hP hg (read_length _ _ _) h0

/-- code that returns the option in registers -/
theorem makes_of_regs {T : Ty} {op : Prog Bytes → M World Unit} {l : Listing} (ws : List (Nat × Bytes)) (hr : inRegs l.win T = true)
    (hrun : ∀ s, ∃ s' g, run l.code s = some s' ∧ s'.reg .rsp = s.reg .rsp ∧ g.length = objSize T ∧ returned l.win T s s' = puts ws g ∧
      ∀ x, ¬ Within (s.reg .rsp - 128) 128 x → s'.mem x = s.mem x)
    (hm : ∀ P w g, Sample T P → (∀ n, P.garbage 0 n = g) → g.length = objSize T → w.mem 0 = none → Gives T (op P w) w (puts ws g)) :
    Makes T op l := by
  intro s
  obtain ⟨s', g, h1, h2, h3, h4, h5⟩ := hrun s
  refine ⟨s', h1, ⟨h2, fun x _ hx => ?_⟩, fun h => absurd (hr.symm.trans h) (by decide), g, h3, fun P w hP hg h0 => ?_⟩
  · rcases hx with hx | hx
    · simp [inRegs, hx] at hr
    · exact h5 x hx
  · rw [h4]
    exact hm P w g hP hg h3 h0

end Opt.X86
