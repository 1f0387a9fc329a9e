import Verif.Osi.Model
import Mathlib.Tactic.Linarith
import Mathlib.Data.List.Basic

/-
Properties of OSI messages over UDP and in trace files (C108, C109).
-/
namespace Verif.Osi
variable {α : Type}

theorem sendLoop_done (msg : List α) (ok : Nat → Bool) (c : Int) (sent : Nat) (h : ¬ sent < msg.length) :
    sendLoop msg ok c sent = [] := by
  rw [sendLoop, if_neg h]

theorem sendLoop_step (msg : List α) (c : Int) (sent : Nat) (h : sent < msg.length) :
    sendLoop msg (fun _ => true) c sent =
      ⟨mark c msg.length sent, (msg.drop sent).take (chunk msg.length sent)⟩ ::
        sendLoop msg (fun _ => true) (mark c msg.length sent + 1) (sent + chunk msg.length sent) := by
  rw [sendLoop, if_pos h, if_pos rfl]

theorem take_chunk (msg : List α) (sent k : Nat) : msg.take sent ++ (msg.drop sent).take k = msg.take (sent + k) := by
  rw [List.take_add]

theorem chunk_pos {size sent : Nat} (h : sent < size) : 0 < chunk size sent := by
  simp only [chunk, maxData]; omega

theorem chunk_le (size sent : Nat) : chunk size sent ≤ 8192 := by simp only [chunk, maxData]; omega

theorem chunk_last {size sent : Nat} (h : sent < size) (hl : sent + chunk size sent ≥ size) :
    sent + chunk size sent = size := by
  simp only [chunk, maxData] at *; omega

theorem chunk_full {size sent : Nat} (hl : ¬ sent + chunk size sent ≥ size) : chunk size sent = 8192 := by
  simp only [chunk, maxData] at *; omega

/-! ### What is sent -/

/-- What esmini promises about a message on the wire: packets are not empty and hold at most 8192 bytes, they are numbered
from `c`, all are full but the last one, and only the last one has a negative counter. -/
inductive Wire : Int → List (Packet α) → List α → Prop
  | last (c : Int) (d : List α) (h : 0 < d.length) (hm : d.length ≤ 8192) : Wire c [⟨-c, d⟩] d
  | more (c : Int) (d m : List α) (r : List (Packet α)) (h : d.length = 8192) (t : Wire (c + 1) r m) :
      Wire c (⟨c, d⟩ :: r) (d ++ m)

theorem sendLoop_wire (msg : List α) (n : Nat) (c : Int) (sent : Nat) (hn : msg.length - sent ≤ n) (h : sent < msg.length) :
    Wire c (sendLoop msg (fun _ => true) c sent) (msg.drop sent) := by
  induction n generalizing c sent with
  | zero => omega
  | succ n ih =>
  rw [sendLoop_step msg c sent h]
  by_cases hl : sent + chunk msg.length sent ≥ msg.length
  · rw [sendLoop_done _ _ _ _ (by omega)]
    have e := chunk_last h hl
    have e2 : (msg.drop sent).take (chunk msg.length sent) = msg.drop sent := by
      rw [List.take_of_length_le]; simp only [List.length_drop]; omega
    rw [e2, mark, if_pos hl]
    refine Wire.last c _ ?_ ?_
    · simp only [List.length_drop]; omega
    · have := chunk_le msg.length sent
      simp only [List.length_drop]; omega
  · have e := chunk_full hl
    have hp := chunk_pos h
    rw [mark, if_neg hl]
    generalize chunk msg.length sent = k at *
    have ih := ih (c + 1) (sent + k) (by omega) (by omega)
    have e2 : msg.drop sent = (msg.drop sent).take k ++ msg.drop (sent + k) := by
      rw [← List.drop_drop, List.take_append_drop]
    have w := Wire.more c ((msg.drop sent).take k) _ _ (by simp only [List.length_take, List.length_drop]; omega) ih
    rwa [← e2] at w

/-- A non-empty message is sent as packets numbered 1, 2, …, each full except the last one, which alone has a negative number;
together they are the message. An empty message is not sent. -/
theorem send_wire (msg : List α) :
    (msg = [] → sendAll msg = []) ∧ (msg ≠ [] → Wire 1 (sendAll msg) msg) := by
  constructor
  · intro h; subst h; rw [sendAll, send, sendLoop_done _ _ _ _ (by simp)]
  · intro h
    have := sendLoop_wire msg _ 1 0 le_rfl (List.length_pos_iff.mpr h)
    simpa [sendAll, send] using this

/-- What is on the wire determines the message and the number of packets. -/
theorem wire_data {c : Int} {l : List (Packet α)} {m : List α} (h : Wire c l m) : l.flatMap (·.data) = m := by
  induction h with
  | last c d h hm => simp
  | more c d m r h t ih => simp [ih]

/-- Concatenating the data of the packets gives the message. -/
theorem send_data (msg : List α) : (sendAll msg).flatMap (·.data) = msg := by
  by_cases h : msg = []
  · rw [(send_wire msg).1 h, h]; rfl
  · exact wire_data ((send_wire msg).2 h)

example : sendAll [1, 2, 3] = [(⟨-1, [1, 2, 3]⟩ : Packet Nat)] := by
  rw [sendAll, send, sendLoop_step _ _ _ (by decide), sendLoop_done _ _ _ _ (by decide)]
  decide

/-! ### Receiving -/

theorem recv_wire {c : Int} {l : List (Packet α)} {m : List α} (h : Wire c l m) (hc : c ≥ 2) (buf : List α)
    (rest : List (Packet α)) : recv ⟨c, buf⟩ (l ++ rest) = (buf ++ m) :: recv Recv.init rest := by
  induction h generalizing buf with
  | last c d h hm =>
    have e1 : ¬ (-c : Int) = 1 := by omega
    have e2 : ((-c).natAbs : Int) = c := by omega
    have e3 : -c < 0 := by omega
    simp only [List.cons_append, List.nil_append, recv, recvStep, Recv.start, e1, e2, e3, if_false, false_or, if_true,
      Option.toList]
  | more c d m r h t ih =>
    have e1 : ¬ (c : Int) = 1 := by omega
    have e2 : ((c).natAbs : Int) = c := by omega
    have e3 : ¬ c < 0 := by omega
    have := ih (by omega) (buf ++ d)
    simp only [List.cons_append, recv, recvStep, Recv.start, e1, e2, e3, if_false, false_or, if_true, Option.toList,
      List.nil_append, this, List.append_assoc]

/-- A message of at least two packets arriving completely is returned, whatever was received before: the receiver
recovers. -/
theorem recv_recovers (s : Recv α) (msg : List α) (h : msg.length > 8192) (rest : List (Packet α)) :
    recv s (sendAll msg ++ rest) = msg :: recv Recv.init rest := by
  have hw := (send_wire msg).2 (by intro e; subst e; simp at h)
  generalize sendAll msg = l at hw
  cases hw with
  | last c d _ hm => omega
  | more c d m r hd t =>
    have := recv_wire t (by omega) d rest
    simp only [List.cons_append, recv, recvStep, Recv.start, if_true, true_or, Option.toList, List.nil_append]
    have e : ¬ (1 : Int) < 0 := by omega
    simp only [e, if_false]
    exact this

theorem recv_single (s : Recv α) (hs : s.next = 1) (msg : List α) (h0 : msg ≠ []) (h : msg.length ≤ 8192)
    (rest : List (Packet α)) : recv s (sendAll msg ++ rest) = (s.buf ++ msg) :: recv Recv.init rest := by
  have hw := (send_wire msg).2 h0
  generalize sendAll msg = l at hw
  cases hw with
  | last c d _ hm =>
    simp [recv, recvStep, Recv.start, hs]
  | more c d m r hd t =>
    have : 0 < m.length := by
      have := wire_data t
      cases t with
      | last => assumption
      | more => simp; omega
    simp at h; omega

/-- Messages that arrive in order and without losses are returned as they were sent, no matter how large; empty messages
do not show up. -/
theorem recv_send (msgs : List (List α)) :
    recv Recv.init (msgs.flatMap sendAll) = msgs.filter (fun m => !m.isEmpty) := by
  induction msgs with
  | nil => rfl
  | cons m r ih =>
    rw [List.flatMap_cons]
    by_cases h0 : m = []
    · rw [(send_wire m).1 h0]; simp [h0, ih]
    · by_cases h : m.length > 8192
      · rw [recv_recovers _ m h, ih, List.filter_cons_of_pos (by simp [h0])]
      · rw [recv_single _ rfl m h0 (by omega), ih, List.filter_cons_of_pos (by simp [h0])]
        rfl

example : recv Recv.init ([[1, 2], [], [3]].flatMap sendAll) = [[1, 2], [3]] := by rw [recv_send]; rfl

example (n : Nat) (h : n = 20000) :
    recv Recv.init ([List.replicate n 7, [1]].flatMap sendAll) = [List.replicate n 7, [1]] := by
  rw [recv_send]
  cases n with
  | zero => omega
  | succ n => simp [List.filter, List.replicate_succ]

/-! ### Losses -/

/-- After a gap within a message, nothing of the rest of this message is used. -/
theorem recv_lost {c : Int} {l : List (Packet α)} {m : List α} (h : Wire c l m) (hc : c ≥ 2) (s : Recv α)
    (hs : 1 ≤ s.next ∧ s.next < c) (sub : List (Packet α)) (hsub : sub.Sublist l) (rest : List (Packet α)) :
    ∃ s', recv s (sub ++ rest) = recv s' rest := by
  induction h generalizing s sub with
  | last c d h hm =>
    cases hsub with
    | cons _ h1 => rw [List.sublist_nil.mp h1]; exact ⟨s, rfl⟩
    | cons_cons _ h1 =>
      rw [List.sublist_nil.mp h1]
      have e1 : ¬ (-c : Int) = 1 := by omega
      have e2 : ¬ ((-c).natAbs : Int) = s.next := by omega
      exact ⟨⟨1, s.buf⟩, by simp only [List.cons_append, List.nil_append, recv, recvStep, Recv.start, e1, e2, if_false,
        false_or, Option.toList]⟩
  | more c d m r h t ih =>
    cases hsub with
    | cons _ h1 => exact ih (by omega) s ⟨hs.1, by omega⟩ _ h1
    | cons_cons _ h1 =>
      have e1 : ¬ (c : Int) = 1 := by omega
      have e2 : ¬ ((c).natAbs : Int) = s.next := by omega
      obtain ⟨s', hs'⟩ := ih (by omega) ⟨1, s.buf⟩ ⟨by simp, by simp; omega⟩ _ h1
      exact ⟨s', by simp only [List.cons_append, recv, recvStep, Recv.start, e1, e2, if_false, false_or, Option.toList,
        List.nil_append, hs']⟩

theorem recv_part {c : Int} {l : List (Packet α)} {m : List α} (h : Wire c l m) (hc : c ≥ 2) (buf : List α)
    (sub : List (Packet α)) (hsub : sub.Sublist l) (rest : List (Packet α)) :
    (∃ s', recv ⟨c, buf⟩ (sub ++ rest) = recv s' rest) ∨
      ∃ s', recv ⟨c, buf⟩ (sub ++ rest) = (buf ++ m) :: recv s' rest := by
  induction h generalizing buf sub with
  | last c d h hm =>
    cases hsub with
    | cons _ h1 => rw [List.sublist_nil.mp h1]; exact .inl ⟨_, rfl⟩
    | cons_cons _ h1 =>
      rw [List.sublist_nil.mp h1]
      exact .inr ⟨_, recv_wire (Wire.last c d h hm) hc buf rest⟩
  | more c d m r h t ih =>
    cases hsub with
    | cons _ h1 => exact .inl (recv_lost t (by omega) _ ⟨by simp; omega, by simp⟩ _ h1 rest)
    | cons_cons _ h1 =>
      have e1 : ¬ (c : Int) = 1 := by omega
      have e2 : ((c).natAbs : Int) = c := by omega
      have e3 : ¬ c < 0 := by omega
      have := ih (by omega) (buf ++ d) _ h1
      simpa only [List.cons_append, recv, recvStep, Recv.start, e1, e2, e3, if_false, false_or, if_true, Option.toList,
        List.nil_append, List.append_assoc] using this

/-- What arrives of a message: its packets in order, some lost, but not the first one unless all are lost. -/
def Arrives (msg : List α) (sub : List (Packet α)) : Prop :=
  sub.Sublist (sendAll msg) ∧ (sub = [] ∨ sub.head? = (sendAll msg).head?)

/-- With losses that do not hit the first packet of a message alone, the receiver never returns anything but messages that
were sent, in order, provided all messages need at least two packets. (Missing: smaller messages and loss of the first
packet, see `recv_mixes_fails`.) -/
theorem recv_losses_partial (ds : List (List α × List (Packet α))) (h : ∀ d ∈ ds, d.1.length > 8192 ∧ Arrives d.1 d.2)
    (s : Recv α) : (recv s (ds.flatMap (·.2))).Sublist (ds.map (·.1)) := by
  induction ds generalizing s with
  | nil => simp [recv]
  | cons d r ih =>
    have ih := ih (fun x hx => h x (List.mem_cons_of_mem _ hx))
    obtain ⟨hl, hsub, hh⟩ := h d List.mem_cons_self
    rw [List.flatMap_cons, List.map_cons]
    rcases hh with hh | hh
    · rw [hh, List.nil_append]; exact (ih s).cons _
    · have hw := (send_wire d.1).2 (by intro e; rw [e] at hl; simp at hl)
      generalize hsd : sendAll d.1 = l at hw hsub hh
      generalize hmd : d.1 = msg at hw
      cases hw with
      | last c x _ hm => rw [hmd] at hl; omega
      | more c x m q hx t =>
        cases hd2 : d.2 with
        | nil => rw [List.nil_append]; exact (ih s).cons _
        | cons p w =>
          rw [hd2] at hh hsub
          simp at hh
          subst hh
          have hw2 : w.Sublist q := List.cons_sublist_cons.mp hsub
          have e : ¬ (1 : Int) < 0 := by omega
          simp only [List.cons_append, recv, recvStep, Recv.start, if_true, true_or, Option.toList, List.nil_append, e,
            if_false]
          rcases recv_part t (by omega) x w hw2 (r.flatMap (·.2)) with ⟨s', hs'⟩ | ⟨s', hs'⟩
          · have : recv ⟨1 + 1, x⟩ (w ++ r.flatMap (·.2)) = recv s' (r.flatMap (·.2)) := hs'
            rw [this]; exact (ih s').cons _
          · have : recv ⟨1 + 1, x⟩ (w ++ r.flatMap (·.2)) = (x ++ m) :: recv s' (r.flatMap (·.2)) := hs'
            rw [this]; exact (ih s').cons_cons _

theorem sendLoop_prefix (msg : List α) (ok : Nat → Bool) (c : Int) (sent : Nat) :
    sendLoop msg ok c sent <+: sendLoop msg (fun _ => true) c sent := by
  by_cases h : sent < msg.length
  · rw [sendLoop_step msg c sent h, sendLoop, if_pos h]
    by_cases ho : ok sent = true
    · rw [if_pos ho]
      have := chunk_pos h
      exact List.cons_prefix_cons.mpr ⟨rfl, sendLoop_prefix msg ok _ _⟩
    · rw [if_neg ho]; exact List.nil_prefix
  · rw [sendLoop_done _ _ _ _ h]; exact List.nil_prefix
termination_by msg.length - sent

/-- If sending fails somewhere, esmini gives up the message: what got out is its beginning. -/
theorem send_failure (ok : Nat → Bool) (msg : List α) : Arrives msg (send ok msg) := by
  have h := sendLoop_prefix msg ok 1 0
  refine ⟨h.sublist, ?_⟩
  obtain ⟨t, ht⟩ := h
  by_cases e : send ok msg = []
  · exact .inl e
  · refine .inr ?_
    show _ = (sendLoop msg (fun _ => true) 1 0).head?
    rw [← ht]
    cases hq : sendLoop msg ok 1 0 with
    | nil => exact absurd hq e
    | cons a b => simp [send, hq]

/-- Failing to send packets does not make the receiver return anything but messages, for messages of at least two
packets. -/
theorem recv_send_failure_partial (ms : List (List α × (Nat → Bool))) (h : ∀ d ∈ ms, d.1.length > 8192) (s : Recv α) :
    (recv s (ms.flatMap (fun d => send d.2 d.1))).Sublist (ms.map (·.1)) := by
  have := recv_losses_partial (ms.map (fun d => (d.1, send d.2 d.1))) (by
    intro d hd
    obtain ⟨x, hx, rfl⟩ := List.mem_map.mp hd
    exact ⟨h x hx, send_failure _ _⟩) s
  rw [List.flatMap_map, List.map_map] at this
  exact this

/-- A message of two packets. -/
theorem send_two (msg : List α) (k : Nat) (hk : k = 8192) (h : k < msg.length) (h2 : msg.length ≤ 2 * k) :
    sendAll msg = [⟨1, msg.take k⟩, ⟨-2, msg.drop k⟩] := by
  have c1 : chunk msg.length 0 = k := by simp only [chunk, maxData]; omega
  have c2 : chunk msg.length k = msg.length - k := by simp only [chunk, maxData]; omega
  rw [sendAll, send, sendLoop_step _ _ _ (by omega)]
  rw [mark, c1, if_neg (by omega), List.drop_zero, Nat.zero_add]
  rw [sendLoop_step _ _ _ (by omega)]
  rw [mark, c2, if_pos (by omega), sendLoop_done _ _ _ _ (by omega)]
  rw [List.take_of_length_le (l := msg.drop k) (by simp)]
  rfl

theorem send_one (msg : List α) (h : msg ≠ []) (h2 : msg.length ≤ 8192) : sendAll msg = [⟨-1, msg⟩] := by
  have hp := List.length_pos_iff.mpr h
  have c1 : chunk msg.length 0 = msg.length := by simp only [chunk, maxData]; omega
  rw [sendAll, send, sendLoop_step _ _ _ hp, c1, mark, c1, if_pos (by omega), sendLoop_done _ _ _ _ (by omega)]
  simp

/-- If the second packet of a message of two packets is lost, then the next small message is lost as well and the one after
it is returned with the first packet of the damaged message in front: the receiver's buffer is not cleared. -/
theorem recv_stale (a b c : List α) (k : Nat) (hk : k = 8192) (ha : k < a.length) (ha2 : a.length ≤ 2 * k) (hb : b ≠ [])
    (hb2 : b.length ≤ k) (hc : c ≠ []) (hc2 : c.length ≤ k) :
    recv Recv.init ((sendAll a).take 1 ++ sendAll b ++ sendAll c) = [a.take k ++ c] := by
  rw [send_two a k hk ha ha2, send_one b hb (hk ▸ hb2), send_one c hc (hk ▸ hc2)]
  simp [recv, recvStep, Recv.start, Recv.init]

/-- Hence the receiver returns messages nobody sent: here a large message (as the first one with static data), of which the
end is lost, and two small ones. -/
theorem recv_mixes_fails :
    ¬ ∀ (ds : List (List Nat × List (Packet Nat))), (∀ d ∈ ds, Arrives d.1 d.2) →
      ∀ m ∈ recv Recv.init (ds.flatMap (·.2)), m ∈ ds.map (·.1) := by
  intro h
  obtain ⟨k, hk⟩ : ∃ k, k = 8192 := ⟨_, rfl⟩
  have e := recv_stale (List.replicate (k + 1) 0) [1] [2] k hk (by simp) (by simp; omega) (by simp) (by simp; omega)
    (by simp) (by simp; omega)
  have hs1 : Arrives (List.replicate (k + 1) 0) ((sendAll (List.replicate (k + 1) 0)).take 1) := by
    refine ⟨List.take_sublist _ _, .inr ?_⟩
    rw [send_two _ k hk (by simp) (by simp; omega)]; rfl
  have := h [(List.replicate (k + 1) 0, (sendAll (List.replicate (k + 1) 0)).take 1), ([1], sendAll [1]),
      ([2], sendAll [2])] (by
    intro d hd
    simp only [List.mem_cons, List.not_mem_nil, or_false] at hd
    rcases hd with rfl | rfl | rfl
    · exact hs1
    · exact ⟨List.Sublist.refl _, .inr rfl⟩
    · exact ⟨List.Sublist.refl _, .inr rfl⟩) (List.take k (List.replicate (k + 1) 0) ++ [2]) (by
      simp only [List.flatMap_cons, List.flatMap_nil, List.append_nil]
      rw [← List.append_assoc, e]; simp)
  simp only [List.map_cons, List.map_nil, List.mem_cons, List.not_mem_nil, or_false] at this
  rcases this with h1 | h1 | h1
  · have := congrArg (List.getLast? ·) h1
    simp [List.getLast?_replicate] at this
  · have := congrArg List.length h1; simp at this; omega
  · have := congrArg List.length h1; simp at this; omega

/-- The C++ receiver returns the messages that were sent if nothing is lost and none is larger than 1024000 bytes. -/
theorem recvC_wire {c : Int} {l : List (Packet α)} {m : List α} (h : Wire c l m) (hc : c ≥ 1) (buf : List α)
    (hb : c = 1 → buf = []) (hm : (buf ++ m).length ≤ 1024000) (rest : List (Packet α)) :
    recvC buf (l ++ rest) = (recvC [] rest).map ((buf ++ m) :: ·) := by
  induction h generalizing buf with
  | last c d h hm' =>
    have e1 : ¬ (-c : Int) = 1 := by omega
    have e2 : ¬ (-c : Int) > 0 := by omega
    have e3 : ¬ (buf ++ d).length > maxMsg := by simp only [maxMsg]; omega
    simp only [List.cons_append, List.nil_append, recvC, cBuf, e1, if_false, e3, e2]
  | more c d m r h t ih =>
    have e0 : (if c = 1 then [] else buf) = buf := by
      by_cases e : c = 1
      · rw [if_pos e, hb e]
      · rw [if_neg e]
    have e2 : (c : Int) > 0 := by omega
    have e3 : ¬ (buf ++ d).length > maxMsg := by simp only [maxMsg]; simp at hm ⊢; omega
    have := ih (by omega) (buf ++ d) (by intro; omega) (by simpa using hm)
    simp only [List.cons_append, recvC, cBuf, e0, e3, if_false, e2, if_true, this, List.append_assoc]

theorem recvC_send (msgs : List (List α)) (h : ∀ m ∈ msgs, m.length ≤ 1024000) :
    recvC [] (msgs.flatMap sendAll) = some (msgs.filter (fun m => !m.isEmpty)) := by
  induction msgs with
  | nil => rfl
  | cons m r ih =>
    have ih := ih (fun x hx => h x (List.mem_cons_of_mem _ hx))
    rw [List.flatMap_cons]
    by_cases h0 : m = []
    · rw [(send_wire m).1 h0]; simp [h0, ih]
    · rw [recvC_wire ((send_wire m).2 h0) (by omega) [] (by simp) (by simpa using h m List.mem_cons_self), ih,
        List.filter_cons_of_pos (by simp [h0])]
      rfl

example : recvC [] ([[1, 2], [], [3]].flatMap sendAll) = some [[1, 2], [3]] := by
  rw [recvC_send _ (by simp)]; rfl

/-- A larger message makes the C++ receiver write beyond its buffer. -/
theorem recvC_overflow {c : Int} {l : List (Packet α)} {m : List α} (h : Wire c l m) (hc : c ≥ 1) (buf : List α)
    (hb : c = 1 → buf = []) (hm : (buf ++ m).length > 1024000) (rest : List (Packet α)) :
    recvC buf (l ++ rest) = none := by
  induction h generalizing buf with
  | last c d h hm' =>
    have e1 : ¬ (-c : Int) = 1 := by omega
    have e3 : (buf ++ d).length > maxMsg := by simp only [maxMsg]; omega
    simp only [List.cons_append, List.nil_append, recvC, cBuf, e1, if_false, e3, if_true]
  | more c d m r h t ih =>
    have e0 : (if c = 1 then [] else buf) = buf := by
      by_cases e : c = 1
      · rw [if_pos e, hb e]
      · rw [if_neg e]
    have e2 : (c : Int) > 0 := by omega
    have := ih (by omega) (buf ++ d) (by intro; omega) (by simpa using hm)
    simp only [List.cons_append, recvC, cBuf, e0, e2, if_true, this, ite_self]

/-- The C++ receiver does not handle all messages esmini sends. -/
theorem recvC_large_fails (msg : List α) (h : msg.length > 1024000) : recvC [] (sendAll msg) = none := by
  have := recvC_overflow ((send_wire msg).2 (by intro e; subst e; simp at h)) (by omega) [] (by simp) (by simpa using h) []
  simpa using this

/-- The C++ receiver does not look at the sequence: with a packet lost it returns a message nobody sent. -/
theorem recvC_lossy_fails (a b : List α) (k : Nat) (hk : k = 8192) (ha : k < a.length) (ha2 : a.length ≤ 2 * k)
    (hb : b ≠ []) (hb2 : b.length ≤ k) : recvC [] ((sendAll a).take 1 ++ sendAll b) = some [a.take k ++ b] := by
  rw [send_two a k hk ha ha2, send_one b hb (hk ▸ hb2)]
  have e1 : ¬ (a.take k).length > maxMsg := by simp only [maxMsg, List.length_take]; omega
  have e2 : ¬ (a.take k ++ b).length > maxMsg := by simp only [maxMsg, List.length_append, List.length_take]; omega
  have e3 : ¬ ((-1 : Int) = 1) := by omega
  have e4 : ¬ ((-1 : Int) > 0) := by omega
  have e5 : (1 : Int) > 0 := by omega
  simp only [List.take_succ_cons, List.take_zero, List.cons_append, List.nil_append, recvC, cBuf, if_true, e1, e2, e3, e4,
    e5, if_false, Option.map_some]

/-! ### Trace file -/

theorem unpack_le32 (n : Nat) (h : n < 4294967296) (r : List Nat) : unpack (le32 n ++ r) = n := by
  simp [unpack, le32]; omega

theorem readAll_record (m : List Nat) (h : m.length < 4294967296) (r : List Nat) :
    readAll (record m ++ r) = m :: readAll r := by
  rw [readAll, record]
  have e : ¬ (le32 m.length ++ m ++ r).length < 4 := by simp [le32]
  have e2 : (le32 m.length ++ m ++ r).drop 4 = m ++ r := by simp [le32]
  rw [if_neg e, e2, List.append_assoc, unpack_le32 _ h]
  simp

/-- What is written to the trace file is read back, message by message. -/
theorem read_write (ms : List (List Nat)) (h : ∀ m ∈ ms, m.length < 4294967296) : readAll (ms.flatMap record) = ms := by
  induction ms with
  | nil => rw [readAll]; simp
  | cons m r ih =>
    rw [List.flatMap_cons, readAll_record m (h m List.mem_cons_self), ih (fun x hx => h x (List.mem_cons_of_mem _ hx))]

example : readAll ([[5, 6], [], [7]].flatMap record) = [[5, 6], [], [7]] := read_write _ (by simp)

/-- Of a file that ends too early (the simulation was killed) all messages written completely are read, then at most one
message that is cut. -/
theorem read_cut (ms : List (List Nat)) (h : ∀ m ∈ ms, m.length < 4294967296) (k : Nat) :
    ∃ j, readAll ((ms.flatMap record).take k) = ms.take j ∨
      ∃ m p, ms[j]? = some m ∧ p <+: m ∧ readAll ((ms.flatMap record).take k) = ms.take j ++ [p] := by
  induction ms generalizing k with
  | nil => exact ⟨0, .inl (by rw [readAll]; simp)⟩
  | cons m r ih =>
    have hm := h m List.mem_cons_self
    have ih := ih (fun x hx => h x (List.mem_cons_of_mem _ hx))
    rw [List.flatMap_cons]
    have hl : (record m).length = m.length + 4 := by simp [record, le32]
    by_cases hk : k ≥ m.length + 4
    · have e : (record m ++ r.flatMap record).take k = record m ++ (r.flatMap record).take (k - (m.length + 4)) := by
        rw [List.take_append, hl, List.take_of_length_le (by omega)]
      rw [e, readAll_record m hm]
      obtain ⟨j, hj | ⟨x, p, hx, hp, hj⟩⟩ := ih (k - (m.length + 4))
      · exact ⟨j + 1, .inl (by rw [hj]; rfl)⟩
      · exact ⟨j + 1, .inr ⟨x, p, by simpa using hx, hp, by rw [hj]; rfl⟩⟩
    · have e : (record m ++ r.flatMap record).take k = (record m).take k := by
        rw [List.take_append_of_le_length (by omega)]
      rw [e]
      by_cases h4 : k < 4
      · refine ⟨0, .inl ?_⟩
        rw [readAll, if_pos (by rw [List.length_take]; omega)]; rfl
      · refine ⟨0, .inr ⟨m, m.take (k - 4), rfl, List.take_prefix _ _, ?_⟩⟩
        have e2 : (record m).take k = le32 m.length ++ m.take (k - 4) := by
          rw [record, List.take_append]
          have : (le32 m.length).length = 4 := rfl
          rw [this, List.take_of_length_le (by rw [this]; omega)]
        rw [e2, readAll]
        have e3 : ¬ (le32 m.length ++ m.take (k - 4)).length < 4 := by simp [le32]
        have e4 : (le32 m.length ++ m.take (k - 4)).drop 4 = m.take (k - 4) := by simp [le32]
        rw [if_neg e3, e4, unpack_le32 _ hm]
        have e5 : (m.take (k - 4)).drop m.length = [] := by
          rw [List.drop_eq_nil_iff]; simp
        rw [e5, readAll, List.take_of_length_le (by simp)]
        simp

example : ∃ j, readAll (([[5, 6], [7]].flatMap record).take 11) = [[5, 6], [7]].take j ∨
    ∃ m p, [[5, 6], [7]][j]? = some m ∧ p <+: m ∧
      readAll (([[5, 6], [7]].flatMap record).take 11) = [[5, 6], [7]].take j ++ [p] := read_cut _ (by simp) 11

end Verif.Osi
