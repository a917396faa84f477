import Verif.Model.ConstParts

/-!
# The parts of a type that could hold the empty states

All of them, without choosing one.
-/

namespace Opt.ConstParts

/-- a part with unused representations -/
structure Part where
  /-- how many -/
  count : Nat
  /-- may it be written to -/
  writable : Bool
deriving DecidableEq, Repr

/-- the greatest count -/
def greatest : List Part → Nat
  | [] => 0
  | p :: ps => max p.count (greatest ps)

mutual
/-- the parts of an object of type `t` (const if `k`) -/
def CTy.parts (k : Bool) : CTy → List Part
  | .plain => []
  | .seen n => [⟨n, !k⟩]
  | .hidden n => if k then [] else [⟨n, true⟩]
  | .pair c1 t1 c2 t2 => t1.parts (k || c1) ++ t2.parts (k || c2)
  | .tuple es => es.parts k
  | .array c t n => if n = 0 then [] else t.parts (k || c)
  | .option c t =>
    if k then []
    -- one of the states is the inner option being empty
    else if greatest (t.parts c) ≥ 1 then (t.parts c).map fun p => ⟨p.count - 1, p.writable⟩
    -- otherwise the flag, if there is one
    else [⟨254, greatest (t.parts false) == 0⟩]
def Elems.parts (k : Bool) : Elems → List Part
  | .nil => []
  | .cons c t es => t.parts (k || c) ++ es.parts k
end

mutual
/-- nothing in the type is declared const -/
def CTy.noConst : CTy → Bool
  | .plain | .seen _ | .hidden _ => true
  | .pair c1 t1 c2 t2 => !c1 && !c2 && t1.noConst && t2.noConst
  | .tuple es => es.noConst
  | .array c t _ => !c && t.noConst
  | .option c t => !c && t.noConst
def Elems.noConst : Elems → Bool
  | .nil => true
  | .cons c t es => !c && t.noConst && es.noConst
end

end Opt.ConstParts
