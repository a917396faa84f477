import Verif.Model.Traits

/-!
# `opt::as_option` (option.hpp 3392-3399)
-/

namespace Opt

/-- `as_option(value)` (option.hpp 3392-3399) on bytes: `option<T> result;` empties storage with arbitrary contents `g`
(`set_level(0)`), then `result.get_unchecked() = value` copies the bytes of the trivially copyable `value` over the union
member at offset 0.  The static assertion (`max_level > 0`) makes `option<T>` as large as `T`.  In C++ the assignment
goes through a union member whose lifetime has not begun; the model is the resulting memory. -/
def asOption (pw : Nat) (T : Ty) (g v : Bytes) : Res Bytes :=
  (T.storeNone pw g).map (fun bs => wr bs 0 v)

end Opt
