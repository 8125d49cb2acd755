import Verif.Sub.Spec

/-! # Sub groups made by any nesting of the selectors -/

set_option autoImplicit false

namespace NP.Spec

/-- The whole group, and every sub group that can be made from it by selectors applied to sub
groups made before, with any memory contents and schedules. Unions are of sub groups without
common particles. -/
inductive Built (npart : List Nat) : Parent → Prop
  | whole : Built npart .whole
  | select {e : SelEnv} {par : Parent} {cond : Nat → Nat → Bool} {sel : Selection}
      (hp : Built npart par) (he : SelOk e npart)
      (hsel : selectCreate e npart par cond = some sel) : Built npart (.sub sel)
  | scan {e : SelEnv} {t0 t1 t2 t3 t4 : Sched} {scanLocal units : Nat} {par : Parent}
      {cond : Nat → Nat → Bool} {sel : Selection} (hc : 0 < npart.length) (hp : Built npart par)
      (he : SelOk e npart) (hs : 0 < scanLocal)
      (hsel : scanCreate e t0 t1 t2 t3 t4 scanLocal units npart par cond = some sel) :
      Built npart (.sub sel)
  | truncate {e : SelEnv} {scanLocal n : Nat} {par : Parent} {sel : Selection}
      (hc : 0 < npart.length) (hp : Built npart par) (he : SelOk e npart) (hs : 0 < scanLocal)
      (hsel : truncateCreate e scanLocal npart par n = some sel) : Built npart (.sub sel)
  | discard {e : SelEnv} {scanLocal n : Nat} {par : Parent} {sel : Selection}
      (hc : 0 < npart.length) (hp : Built npart par) (he : SelOk e npart) (hs : 0 < scanLocal)
      (hsel : discardCreate e scanLocal npart par n = some sel) : Built npart (.sub sel)
  | copy {e : SelEnv} {s sel : Selection} (hp : Built npart (.sub s)) (he : SelOk e npart)
      (hsel : copyCreate e s = some sel) : Built npart (.sub sel)
  | cells {e : SelEnv} {des0 : List Nat} {par : Parent} {cs ce : Nat} {sel : Selection}
      (hp : Built npart par) (he : SelOk e npart) (hdes : des0.length = npart.length)
      (h1 : cs ≤ ce) (h2 : ce ≤ npart.length)
      (hz : cs = ce → des0 = List.replicate npart.length 0 ∧
        e.d0.take npart.length = List.replicate npart.length 0)
      (hsel : cellCreate e des0 npart par cs ce = some sel) : Built npart (.sub sel)
  | union {e : SelEnv} {parents : List Selection} {sel : Selection} (hc : 0 < npart.length)
      (hp : ∀ p ∈ parents, Built npart (.sub p)) (he : SelOk e npart)
      (hd : parents.Pairwise fun a b => ∀ c l, InParent npart (.sub a) c l →
        ¬ InParent npart (.sub b) c l)
      (hsel : unionCreate e npart.length parents = some sel) : Built npart (.sub sel)
  | part {e : SelEnv} {scanLocal : Nat} {par : Parent} {f : Nat → Nat → Int}
      {bufs : List PartBuf} {sels : List (Option Selection)} {px : Nat} {sel : Selection}
      (hc : 0 < npart.length) (hp : Built npart par) (he : SelOk e npart) (hs : 0 < scanLocal)
      (hb : ∀ b ∈ bufs, PartSizes npart.length b)
      (hsel : partitionCreate e scanLocal npart par f bufs = some sels)
      (hget : sels[px]? = some (some sel)) : Built npart (.sub sel)

end NP.Spec
