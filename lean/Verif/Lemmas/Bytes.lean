import Verif.Model.Bytes

namespace Opt

theorem rd_length {bs : Bytes} {off n : Nat} (h : off + n ≤ bs.length) : (rd bs off n).length = n := by
  simp [rd]; omega

theorem wr_length {bs src : Bytes} {off : Nat} (h : off + src.length ≤ bs.length) :
    (wr bs off src).length = bs.length := by
  simp [wr]; omega

theorem rd_wr_same {bs src : Bytes} {off n : Nat} (hn : src.length = n) (h : off + n ≤ bs.length) :
    rd (wr bs off src) off n = src := by
  subst hn
  simp only [rd, wr, List.append_assoc]
  rw [List.drop_append_of_le_length (by simp; omega)]
  have h1 : List.drop off (List.take off bs) = [] := by
    apply List.drop_eq_nil_of_le; simp; omega
  rw [h1, List.nil_append, List.take_append_of_le_length (Nat.le_refl _), List.take_length]

theorem wr_getElem? {bs src : Bytes} {off i : Nat} (h : off + src.length ≤ bs.length) :
    (wr bs off src)[i]? = if i < off then bs[i]? else if i < off + src.length then src[i - off]? else bs[i]? := by
  have hl : (List.take off bs).length = off := by simp; omega
  simp only [wr, List.append_assoc]
  by_cases h1 : i < off
  · simp only [h1, if_true]
    rw [List.getElem?_append_left (by omega), List.getElem?_take_of_lt h1]
  · simp only [h1, if_false]
    rw [List.getElem?_append_right (by omega), hl]
    by_cases h2 : i < off + src.length
    · simp only [h2, if_true]
      rw [List.getElem?_append_left (by omega)]
    · simp only [h2, if_false]
      rw [List.getElem?_append_right (by omega), List.getElem?_drop]
      congr 1; omega

theorem rd_getElem? {bs : Bytes} {off n i : Nat} :
    (rd bs off n)[i]? = if i < n then bs[off + i]? else none := by
  simp only [rd]
  by_cases h : i < n
  · simp [h, List.getElem?_take_of_lt h]
  · simp [h]; omega

/-- reading a range disjoint from the written one -/
theorem rd_wr_disj {bs src : Bytes} {off n o : Nat} (h : off + src.length ≤ bs.length)
    (hd : o + n ≤ off ∨ off + src.length ≤ o) : rd (wr bs off src) o n = rd bs o n := by
  apply List.ext_getElem?
  intro i
  rw [rd_getElem?, rd_getElem?]
  by_cases hi : i < n
  · simp only [hi, if_true]
    rw [wr_getElem? h]
    by_cases h1 : o + i < off
    · simp [h1]
    · simp only [h1, if_false]
      have h2 : ¬ (o + i < off + src.length) := by omega
      simp [h2]
  · simp [hi]

/-- reading a sub-range of a range -/
theorem rd_rd {bs : Bytes} {o n o' n' : Nat} (h : o' + n' ≤ n) :
    rd (rd bs o n) o' n' = rd bs (o + o') n' := by
  apply List.ext_getElem?
  intro i
  simp only [rd_getElem?]
  by_cases hi : i < n'
  · have h1 : o' + i < n := by omega
    simp only [hi, h1, if_true]
    congr 1; omega
  · simp [hi]

theorem rd_all {bs : Bytes} {n : Nat} (h : bs.length = n) : rd bs 0 n = bs := by
  subst h; simp [rd]

theorem wr_rd_self {bs : Bytes} {off n : Nat} (h : off + n ≤ bs.length) : wr bs off (rd bs off n) = bs := by
  apply List.ext_getElem?
  intro i
  have hl : (rd bs off n).length = n := rd_length h
  rw [wr_getElem? (by omega), hl]
  split
  · rfl
  · split
    · rw [rd_getElem?, if_pos (by omega)]
      congr 1; omega
    · rfl

theorem leBytes_length (n v : Nat) : (leBytes n v).length = n := by
  induction n generalizing v with
  | zero => rfl
  | succ n ih => simp [leBytes, ih]

theorem leVal_leBytes (n v : Nat) : leVal (leBytes n v) = v % 256 ^ n := by
  induction n generalizing v with
  | zero => simp [leBytes, leVal, Nat.mod_one]
  | succ n ih =>
    simp only [leBytes, leVal, ih, BitVec.toNat_ofNat]
    have e : 256 ^ (n + 1) = 256 * 256 ^ n := by rw [Nat.pow_succ, Nat.mul_comm]
    rw [e, Nat.mod_mul]

theorem leVal_lt (bs : Bytes) : leVal bs < 256 ^ bs.length := by
  induction bs with
  | nil => simp [leVal]
  | cons b bs ih =>
    simp only [leVal, List.length_cons, Nat.pow_succ]
    have := b.isLt
    omega

theorem leBytes_leVal (bs : Bytes) : leBytes bs.length (leVal bs) = bs := by
  induction bs with
  | nil => rfl
  | cons b bs ih =>
    simp only [List.length_cons, leBytes, leVal]
    congr 1
    · apply BitVec.eq_of_toNat_eq
      have := b.isLt
      simp only [BitVec.toNat_ofNat]; omega
    · have := b.isLt
      have : (b.toNat + 256 * leVal bs) / 256 = leVal bs := by omega
      rw [this, ih]

theorem pow256 {w : Nat} (hw : w % 8 = 0) : 256 ^ (w / 8) = 2 ^ w := by
  have h : 256 ^ (w / 8) = 2 ^ (8 * (w / 8)) := by rw [Nat.pow_mul]
  rw [h]; congr 1; omega

theorem st_length {w : Nat} {bs : Bytes} {off : Nat} (v : BitVec w) (h : off + w / 8 ≤ bs.length) :
    (st w bs off v).length = bs.length := by
  rw [st, wr_length (by rw [leBytes_length]; exact h)]

theorem ld_st_same {w : Nat} {bs : Bytes} {off : Nat} (hw : w % 8 = 0) (v : BitVec w)
    (h : off + w / 8 ≤ bs.length) : ld w (st w bs off v) off = v := by
  rw [ld, st, rd_wr_same (leBytes_length _ _) h, leVal_leBytes, pow256 hw]
  apply BitVec.eq_of_toNat_eq
  rw [BitVec.toNat_ofNat, Nat.mod_mod, Nat.mod_eq_of_lt v.isLt]

theorem ld_st_disj {w u : Nat} {bs : Bytes} {off o : Nat} (v : BitVec w) (h : off + w / 8 ≤ bs.length)
    (hd : o + u / 8 ≤ off ∨ off + w / 8 ≤ o) : ld u (st w bs off v) o = ld u bs o := by
  rw [ld, ld, st, rd_wr_disj (by rw [leBytes_length]; exact h) (by rw [leBytes_length]; exact hd)]

end Opt
