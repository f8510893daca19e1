import Verif.Spec.Conversations
import Verif.Spec.Callers

/-!
# Specification vocabulary: several callers and a server that replies (C117)
-/

namespace Knx
open Spec

/-- A client with its callers; the request that got the lock last; and the time when its telegram was sent, if it has been sent and not replied to. -/
structure Crowd (m : Mode) where
  pool : Pool (clientServer m)
  cur : Option ClientReq
  sent : Option Nat

/-- Who got which result, in order. -/
def outcomes {V : Server} (tr : List (PObs V)) : List (Nat × Ret) := tr.filterMap fun
  | .own i (.ret v) => some (i, v)
  | _ => none

/-- One step. `ans` tells for every request with which telegram the server replies, within `R` milliseconds, and what the call should return. -/
inductive CrowdStep (m : Mode) (R : Nat) (Pa : Cemi → Prop) (ans : ClientReq → Cemi × Ret) :
    Crowd m → List (PObs (clientServer m)) → Crowd m → Prop
  /-- Time passes, if there is nothing to do and nobody could get the lock. -/
  | wait {p : Pool (clientServer m)} {cur : Option ClientReq} {w : Option Nat} (d : Nat) : acting .client m p.sys.bg = false →
      callActing m p.sys = false → (p.line = [] ∨ p.sys.api ≠ .idle) → (∀ t ∈ w, p.sys.bg.now + d ≤ t + R) →
      CrowdStep m R Pa ans ⟨p, cur, w⟩ [] ⟨⟨{ p.sys with bg := { p.sys.bg with now := p.sys.bg.now + d } }, p.owner, p.line⟩, cur, w⟩
  /-- The server replies. -/
  | reply {p p' : Pool (clientServer m)} {r : ClientReq} {t : Nat} {o : List (PObs (clientServer m))} (d : Bytes) : Carries m d (ans r).1 →
      p.step (.sys (.bg (.dgram d))) = some (p', o) → CrowdStep m R Pa ans ⟨p, some r, some t⟩ o ⟨p', some r, none⟩
  /-- The first in the line gets the lock. -/
  | grant {p p' : Pool (clientServer m)} {cur : Option ClientReq} {w : Option Nat} {i : Nat} {r : ClientReq}
      {rest : List (Nat × (clientServer m).Req)} {o : List (PObs (clientServer m))} : p.line = (i, r) :: rest → p.step .grant = some (p', o) →
      CrowdStep m R Pa ans ⟨p, cur, w⟩ o ⟨p', some r, w⟩
  /-- Any other step: somebody calls, or gives up waiting, or a step of the client in which nothing goes wrong. -/
  | step {p p' : Pool (clientServer m)} {cur : Option ClientReq} {w : Option Nat} {o : List (PObs (clientServer m))} (e : PEv (clientServer m)) :
      e ≠ .grant → (∀ d, e ≠ .sys (.delay d)) → p.step e = some (p', o) → Fine m Pa (inner o) →
      CrowdStep m R Pa ans ⟨p, cur, w⟩ o ⟨p', cur, if apiSent (inner o) = [] then w else some p.sys.bg.now⟩

/-- The runs. -/
inductive CrowdRun (m : Mode) (R : Nat) (Pa : Cemi → Prop) (ans : ClientReq → Cemi × Ret) :
    Crowd m → List (PObs (clientServer m)) → Crowd m → Prop
  | nil (x : Crowd m) : CrowdRun m R Pa ans x [] x
  | cons {x x' x'' : Crowd m} {o tr : List (PObs (clientServer m))} : CrowdStep m R Pa ans x o x' → CrowdRun m R Pa ans x' tr x'' →
      CrowdRun m R Pa ans x (o ++ tr) x''

/-- The server can reply to the request, and so on: see `Item.Good`. -/
def GoodReq (m : Mode) (Pa : Cemi → Prop) (ans : ClientReq → Cemi × Ret) (r : ClientReq) : Prop :=
  Item.Good m Pa ⟨Spec.clientCall r, (ans r).1, (ans r).2⟩

end Knx
