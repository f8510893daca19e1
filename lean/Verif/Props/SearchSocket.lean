import Verif.Spec.Endpoint
import Verif.Props.Search
import Verif.Props.Discover
import Verif.Props.Endpoint

/-!
# Property of the socket of the gateway search (C93)
-/

namespace Knx
open Spec

/-- What a search sends, when it gives up: exactly one datagram if it can be sent, a search request to 224.0.23.12:3671 naming the address
that the operating system reports for the socket; without a socket that has an IPv4 address nothing is sent and the result is an
error, not a panic; a list is returned only if the request was sent. -/
theorem C93_sent {m : Mode} {T now : Nat} {bound : Bool} {addr : LocalAddr} {evs : List (Nat × SearchEv)} {out : List (SockAddr × Bytes)}
    {st : SearchSt} (h : searchAll m T now bound addr evs = some (out, st)) :
    (out = [] ∨ ∃ a, bound = true ∧ addr = .v4 a ∧ out = [(⟨⟨224, 0, 23, 12⟩, 3671⟩, frame SEARCH_REQUEST (hpai ⟨1, a⟩))]) ∧
    (∀ rs, st = .finished (.ok rs) → out ≠ []) ∧
    ((¬ ∃ a, bound = true ∧ addr = .v4 a) → out = [] ∧ st = .finished .err) := by
  cases bound with
  | false =>
    simp only [searchAll] at h
    split at h <;> simp at h
    obtain ⟨rfl, rfl⟩ := h
    simp
  | true =>
    cases addr with
    | v6 =>
      simp only [searchAll] at h
      split at h <;> simp at h
      obtain ⟨rfl, rfl⟩ := h
      simp
    | fails =>
      simp only [searchAll] at h
      split at h <;> simp at h
      obtain ⟨rfl, rfl⟩ := h
      simp
    | v4 a =>
      simp only [searchAll, Option.map_eq_some_iff, Prod.mk.injEq] at h
      obtain ⟨st', h1, h2, rfl⟩ := h
      refine ⟨?_, ?_, ?_⟩
      · split at h2
        · refine Or.inr ⟨a, rfl, rfl, ?_⟩
          rw [← h2, C19_bodies.2.2.2.2.2.1 a]
          rfl
        · exact Or.inl h2.symm
      · intro rs hrs
        subst hrs
        obtain ⟨t, ds, t', h3, -, -⟩ := C60_exact h1
        rw [if_pos (by rw [h3]; simp)] at h2
        rw [← h2]; simp
      · intro hn
        exact absurd ⟨a, rfl, rfl⟩ hn

theorem searchNaming_inj {h h' : Hpai} (e : SearchNaming (frame SEARCH_REQUEST (hpai h)) h') : h' = h :=
  (hpai_inj (frame_body e)).symm

/-- Exactly when the answers to the request get back to the search: if the reported address is 0.0.0.0:0, or that of the socket. -/
theorem C93_answerable_iff (ips : List Ipv4) (port : U16) (hips : ips ≠ []) (a : SockAddr) :
    Answerable ips port (frame SEARCH_REQUEST (hpai ⟨1, a⟩)) ↔ a = routeBack ∨ Gets ips port a := by
  constructor
  · rintro ⟨h, src, h1, h2, h3⟩
    rw [searchNaming_inj h1] at h3
    unfold answerTo at h3
    split at h3
    · rename_i e; exact Or.inl e
    · exact Or.inr h3
  · obtain ⟨ip, hip⟩ := List.exists_mem_of_ne_nil ips hips
    rintro (rfl | h)
    · exact ⟨⟨1, routeBack⟩, ⟨ip, port⟩, rfl, ⟨hip, rfl⟩, by simpa [answerTo, Gets] using hip⟩
    · refine ⟨⟨1, a⟩, ⟨ip, port⟩, rfl, ⟨hip, rfl⟩, ?_⟩
      unfold answerTo
      split
      · exact ⟨hip, rfl⟩
      · exact h

/-- C93 is refuted: a socket bound to 0.0.0.0:0 is reported to have the address 0.0.0.0 and a port other than 0; if every datagram that
arrives is an answer sent to the endpoint that a request of the search names, none arrives, whatever gateways there are; a search that
returns a list returns the empty one, and the discovery program prints nothing. -/
theorem C93_violated {m : Mode} {T now : Nat} {bound : Bool} {port : U16} (hp : port ≠ 0) {evs : List (Nat × SearchEv)}
    {out : List (SockAddr × Bytes)} {st : SearchSt} (h : searchAll m T now bound (.v4 ⟨⟨0, 0, 0, 0⟩, port⟩) evs = some (out, st))
    (ips : List Ipv4) (hips : (⟨0, 0, 0, 0⟩ : Ipv4) ∉ ips)
    (ha : ∀ t d, (t, .dgram d) ∈ evs → ∃ q ∈ out, Answerable ips port q.2) :
    (∀ t d, (t, SearchEv.dgram d) ∉ evs) ∧ (∀ rs, st = .finished (.ok rs) → rs = []) ∧
    (∀ r, st = .finished r → (discover r).1 = []) := by
  have key : ∀ t d, (t, SearchEv.dgram d) ∉ evs := by
    intro t d hd
    obtain ⟨q, hq, h1⟩ := ha t d hd
    rcases (C93_sent h).1 with h2 | ⟨a, -, h2, h3⟩
    · rw [h2] at hq; simp at hq
    · cases h2
      rw [h3, List.mem_singleton] at hq
      subst hq
      have hne : ips ≠ [] := by
        obtain ⟨-, src, -, h4, -⟩ := h1
        intro e; rw [e] at h4; simp [Gets] at h4
      rcases (C93_answerable_iff ips port hne _).1 h1 with h4 | h4
      · rw [routeBack] at h4
        exact hp (by injection h4)
      · exact hips h4.1
  have k2 : ∀ rs, st = .finished (.ok rs) → rs = [] := by
    intro rs hrs
    subst hrs
    cases bound with
    | false =>
      simp only [searchAll] at h
      split at h <;> simp at h
    | true =>
      simp only [searchAll, Option.map_eq_some_iff, Prod.mk.injEq] at h
      obtain ⟨st', h1, h2, rfl⟩ := h
      obtain ⟨t, ds, t', h3, h4, -⟩ := C60_exact h1
      cases ds with
      | nil => exact List.eq_nil_of_length_eq_zero h4.1
      | cons x ds =>
        exfalso
        refine key x.1 x.2 ?_
        rw [h3]; simp [arrivals]
  refine ⟨key, k2, ?_⟩
  intro r hr
  cases r with
  | ok rs => rw [k2 rs hr]; rfl
  | err => rfl
  | panic => rfl

/-- The hypotheses of `C93_violated`: the search of a host at 192.168.1.5, with port 50000; its request names 0.0.0.0:50000. -/
example (m : Mode) : ∃ out, searchAll m 3000 0 true (.v4 ⟨⟨0, 0, 0, 0⟩, 50000⟩) [(1, .sendOk), (3001, .timer)]
      = some (out, .finished (.ok [])) ∧
    out = [(⟨⟨224, 0, 23, 12⟩, 3671⟩, [6, 0x10, 2, 1, 0, 14, 8, 1, 0, 0, 0, 0, 0xc3, 0x50])] ∧
    (⟨0, 0, 0, 0⟩ : Ipv4) ∉ [(⟨192, 168, 1, 5⟩ : Ipv4)] ∧
    (∀ t d, (t, SearchEv.dgram d) ∈ [(1, SearchEv.sendOk), (3001, .timer)] → ∃ q ∈ out, Answerable [⟨192, 168, 1, 5⟩] 50000 q.2) ∧
    ∀ q ∈ out, ¬ Answerable [⟨192, 168, 1, 5⟩] 50000 q.2 := by
  refine ⟨_, by cases m <;> rfl, rfl, by decide, by intro t d h; simp at h, ?_⟩
  intro q hq
  rw [List.mem_singleton] at hq
  subst hq
  intro h
  have := (C93_answerable_iff [⟨192, 168, 1, 5⟩] 50000 (by simp) ⟨⟨0, 0, 0, 0⟩, 50000⟩).1 h
  simp [routeBack, Gets] at this

/-- Had the request named 0.0.0.0:0 or the address of the host, answers would get back. -/
example : Answerable [⟨192, 168, 1, 5⟩] 50000 (frame SEARCH_REQUEST (hpai ⟨1, routeBack⟩)) ∧
    Answerable [⟨192, 168, 1, 5⟩] 50000 (frame SEARCH_REQUEST (hpai ⟨1, ⟨⟨192, 168, 1, 5⟩, 50000⟩⟩)) :=
  ⟨(C93_answerable_iff _ _ (by simp) _).2 (Or.inl rfl), (C93_answerable_iff _ _ (by simp) _).2 (Or.inr (by simp [Gets]))⟩

/-- The socket cannot be bound; it is reported to have an IPv6 address. -/
example (m : Mode) : searchAll m 3000 0 false .fails [] = some ([], .finished .err) ∧ searchAll m 3000 0 true .v6 [] = some ([], .finished .err) :=
  ⟨rfl, rfl⟩

end Knx
