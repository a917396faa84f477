import Verif.Model.Wrapper

/-!
# The wrappers "mimic the underlying type" (docs/reference.md, `opt::sentinel`, `opt::sentinel_f`, `opt::member`, `opt::enforce`)

What the same expressions do with `T` in the place of the wrapper.
-/

namespace Opt.Wrapper

/-- `T t(e);`, or `T t{e};` where the library does that: an aggregate before C++20 -/
def wantDirect (F : Facts) : Outcome :=
  if F.constructible then .ok .value
  else if F.aggregate && !F.cxx20 && F.braced then .ok (if F.listCtor then .list else .value)
  else .noMatch

/-- `T t = e;` -/
def wantImplicit (F : Facts) : Outcome := if F.convertible then .ok .value else .noMatch

/-- `t = e;` -/
def wantAssign (F : Facts) : Outcome := if F.assignable then .ok .value else .noMatch

end Opt.Wrapper
