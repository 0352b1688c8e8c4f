import Verif.Model.PassbandShare

/-!
# What C130 says of programs that share passbands between groups
-/

namespace LCL.PassbandShareSpec
open LCL LCL.PassbandShare
variable {K : Type} [Field K] [LinearOrder K] [FloorRing K]

/-- The worlds a program can reach by any calls, those that raise included. -/
inductive Reachable : World K → Prop
  | start : Reachable ⟨[], []⟩
  | step {W : World K} (h : Reachable W) (op : Op K) : Reachable (step W op).1

/-- `g` is the `i`-th group and shows `s`. -/
def Shows (W : World K) (i : Nat) (s : PassbandGroup K) : Prop :=
  ∃ g, W.groups[i]? = some g ∧ seen W.bands g = s

/-- The passband object `r` is a member of the `i`-th group. -/
def Holds (W : World K) (i r : Nat) : Prop :=
  ∃ g n, W.groups[i]? = some g ∧ g.members.get? n = some r

/-- The group a call is made on (or creates). -/
def target (W : World K) : Op K → Option Nat
  | .passband .. => none
  | .group .. => some W.groups.length
  | .add i _ => some i
  | .process i _ _ => some i
  | .processOne .. => none

/-- The call reprocesses the passband object `r`. -/
def Reprocesses (W : World K) : Op K → Nat → Prop
  | .process i _ _, r => Holds W i r
  | .processOne r' _ _, r => r = r'
  | _, _ => False

/-- The `i`-th group is up to date: since the last call on it, which returned, none of its passbands
was reprocessed by a call on something else. -/
inductive UpToDate : World K → Nat → Prop
  | call {W W' : World K} {i : Nat} {op : Op K} (hr : Reachable W) (ht : target W op = some i)
      (h : step W op = (W', none)) : UpToDate W' i
  | other {W W' : World K} {i : Nat} {op : Op K} {e : Option Err} (hu : UpToDate W i) (ht : target W op ≠ some i)
      (hk : ∀ r, Holds W i r → ¬ Reprocesses W op r) (h : step W op = (W', e)) : UpToDate W' i

end LCL.PassbandShareSpec
