import Verif.Spec.Replied

/-!
# Specification vocabulary: a program of reads and writes (C116)

`Convo` are the runs of a client whose caller makes the calls of a program one after another, with pauses of any length, against a server that replies
to each of them.
-/

namespace Knx
open Spec

/-- One call of a program, the telegram the server replies with, and what the call should return. -/
structure Item where
  call : Call
  reply : Cemi
  result : Ret

/-- The server can reply to the call, the request of the call can be encoded (`short` and `nonempty`), and the call passes over telegrams with `Pa`. -/
structure Item.Good (m : Mode) (Pa : Cemi → Prop) (i : Item) : Prop where
  answer : IsAnswer i.call i.reply i.result
  passes : ∀ c, Pa c → Passes i.call c
  short : ∀ addr x, i.call = .write addr x false → x.length ≤ 253
  nonempty : ∀ addr x, i.call = .write addr x true → x ≠ []
  sendable : ∃ d, Carries m d i.reply

/-- The runs of the program `prog`, from one state to another; `left` are the calls that have not returned. -/
inductive Convo (m : Mode) (R : Nat) (Pa : Cemi → Prop) : Sys → (prog left : List Item) → List Obs → Sys → Prop
  /-- The caller makes no further call. -/
  | stop (s : Sys) (prog : List Item) : Convo m R Pa s prog prog [] s
  /-- Time passes between two calls. -/
  | pause {s s' : Sys} {prog left : List Item} {tr : List Obs} (d : Nat) :
      Convo m R Pa { s with bg := { s.bg with now := s.bg.now + d } } prog left tr s' → Convo m R Pa s prog left tr s'
  /-- Something happens between two calls. -/
  | between {s s' s'' : Sys} {prog left : List Item} {o tr : List Obs} (e : Ev) : (∀ d, e ≠ .delay d) → step m s e = some (s', o) → Fine m Pa o →
      Convo m R Pa s' prog left tr s'' → Convo m R Pa s prog left (o ++ tr) s''
  /-- The next call is made, and the run goes on after it has returned. -/
  | call {s s1 s2 s3 : Sys} {w : Option Nat} {prog left : List Item} {tr tr' : List Obs} (i : Item) :
      step m s (.api (.call i.call)) = some (s1, [.call i.call]) → Replied m R Pa i.reply s1 none tr s2 w → s2.api = .idle →
      Convo m R Pa s2 prog left tr' s3 → Convo m R Pa s (i :: prog) left (.call i.call :: (tr ++ tr')) s3
  /-- The next call is made and has not returned. -/
  | open {s s1 s2 : Sys} {w : Option Nat} {prog : List Item} {tr : List Obs} (i : Item) :
      step m s (.api (.call i.call)) = some (s1, [.call i.call]) → Replied m R Pa i.reply s1 none tr s2 w → s2.api ≠ .idle →
      Convo m R Pa s (i :: prog) (i :: prog) (.call i.call :: tr) s2

end Knx
