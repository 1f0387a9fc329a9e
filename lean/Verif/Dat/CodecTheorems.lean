import Verif.Dat.Codec

/-! C14 and C15: writing and reading recordings byte by byte. -/
namespace Verif.Dat

theorem encLE_length (k n) : (encLE k n).length = k := by
  induction k generalizing n with
  | zero => rfl
  | succ k ih => simp [encLE, ih]

theorem decLE_encLE (k n) : decLE (encLE k n) = n % 256 ^ k := by
  induction k generalizing n with
  | zero => simp [encLE, decLE, Nat.mod_one]
  | succ k ih =>
    simp only [encLE, decLE, ih]
    have h : (UInt8.ofNat (n % 256)).toNat = n % 256 := by simp
    rw [h, Nat.pow_succ, Nat.mul_comm (256 ^ k) 256, Nat.mod_mul]

@[simp] theorem encU32_length (n) : (encU32 n).length = 4 := encLE_length 4 n

theorem decLE_encU32 {n : Nat} (h : n < 2 ^ 32) : decLE (encU32 n) = n := by
  rw [encU32, decLE_encLE]
  exact Nat.mod_eq_of_lt (by omega)

/-- A packet that fits the file format: the id and the size of the payload are 32 bit numbers. -/
def Packet.Fits (p : Packet) : Prop := p.id < 2 ^ 32 ∧ p.data.length < 2 ^ 32

/-- The bytes of one packet. -/
def packetBytes (p : Packet) : Bytes := encU32 p.id ++ (encU32 p.data.length ++ p.data)

theorem writePackets_eq (file : Bytes) (ps : List Packet) :
    writePackets file ps = file ++ (ps.map packetBytes).flatten := by
  induction ps generalizing file with
  | nil => simp [writePackets]
  | cons p ps ih =>
    rw [writePackets, List.foldl_cons]
    have := ih (writePacket file p)
    rw [writePackets] at this
    rw [this]
    simp [writePacket, packetBytes]

theorem readHeader_packet (p : Packet) (hp : p.Fits) (r : Bytes) :
    readHeader (packetBytes p ++ r) = some (p.id, p.data.length, p.data ++ r) := by
  have l1 : (encU32 p.id).length = 4 := encU32_length _
  have l2 : (encU32 p.data.length).length = 4 := encU32_length _
  have e : packetBytes p ++ r = encU32 p.id ++ (encU32 p.data.length ++ (p.data ++ r)) := by simp [packetBytes]
  unfold readHeader
  rw [e, if_neg (by simp; omega)]
  have h1 : (encU32 p.id ++ (encU32 p.data.length ++ (p.data ++ r))).take 4 = encU32 p.id := by
    rw [List.take_append_of_le_length (by omega), List.take_of_length_le (by omega)]
  have h2 : (encU32 p.id ++ (encU32 p.data.length ++ (p.data ++ r))).drop 4 = encU32 p.data.length ++ (p.data ++ r) := by
    rw [List.drop_append_of_le_length (by omega), List.drop_of_length_le (by omega), List.nil_append]
  have h3 : (encU32 p.data.length ++ (p.data ++ r)).take 4 = encU32 p.data.length := by
    rw [List.take_append_of_le_length (by omega), List.take_of_length_le (by omega)]
  have h4 : (encU32 p.id ++ (encU32 p.data.length ++ (p.data ++ r))).drop 8 = p.data ++ r := by
    rw [show 8 = 4 + 4 from rfl, ← List.drop_drop, h2, List.drop_append_of_le_length (by omega),
      List.drop_of_length_le (by omega), List.nil_append]
  rw [h1, h2, h3, h4, decLE_encU32 hp.1, decLE_encU32 hp.2]

theorem readPackets_unfold (file : Bytes) : readPackets file = match readHeader file with
    | none => []
    | some (id, size, rest) => (createGenericPacket id size rest).1 :: readPackets (createGenericPacket id size rest).2 := by
  rw [readPackets]
  split
  · next h => rw [h]
  · next h => rw [h]

theorem readPackets_cons (p : Packet) (hp : p.Fits) (r : Bytes) :
    readPackets (packetBytes p ++ r) = p :: readPackets r := by
  rw [readPackets_unfold, readHeader_packet p hp]
  simp [createGenericPacket]

theorem readPackets_short (file : Bytes) (h : file.length < 8) : readPackets file = [] := by
  rw [readPackets_unfold]; simp [readHeader, h]

theorem readPackets_flatten (ps : List Packet) (hp : ∀ p ∈ ps, p.Fits) (r : Bytes) :
    readPackets ((ps.map packetBytes).flatten ++ r) = ps ++ readPackets r := by
  induction ps with
  | nil => simp
  | cons p ps ih =>
    simp only [List.map_cons, List.flatten_cons, List.append_assoc, List.cons_append]
    rw [readPackets_cons p (hp p (by simp)), ih (fun q hq => hp q (by simp [hq]))]

/-- **C14**: what is written is read back, packet by packet, in order. -/
theorem packets_round_trip (ps : List Packet) (hp : ∀ p ∈ ps, p.Fits) : readPackets (writePackets [] ps) = ps := by
  have := readPackets_flatten ps hp []
  rw [writePackets_eq]
  simpa [readPackets_short] using this

example : readPackets (writePackets [] [⟨5, [1, 2, 3]⟩, ⟨22, []⟩]) = [⟨5, [1, 2, 3]⟩, ⟨22, []⟩] :=
  packets_round_trip _ (by simp [Packet.Fits])

theorem fileU32_append {n : Nat} (h : n < 2 ^ 32) (r : Bytes) : fileU32 (encU32 n ++ r) = some (n, r) := by
  unfold fileU32
  have l : (encU32 n).length = 4 := encU32_length _
  rw [if_neg (by simp), List.take_append_of_le_length (by omega), List.take_of_length_le (by omega),
    List.drop_append_of_le_length (by omega), List.drop_of_length_le (by omega), decLE_encU32 h]
  simp

theorem fileString_append {s : Bytes} (h : s.length < 2 ^ 32) (r : Bytes) :
    fileString (writeString s ++ r) = some (s, r) := by
  unfold fileString writeString
  rw [List.append_assoc, fileU32_append h]
  simp

/-- **C14**: a whole recording, header and packets, is read back unchanged. -/
theorem recording_round_trip (odr model rev : Bytes) (ps : List Packet) (hp : ∀ p ∈ ps, p.Fits)
    (hs : 12 + odr.length + model.length + rev.length < 2 ^ 32) :
    ∃ rest, fillDatHeader (writePackets (init odr model rev) ps) =
      some (⟨versionMajor, versionMinor, odr, model, rev⟩, rest) ∧ readPackets rest = ps := by
  refine ⟨(ps.map packetBytes).flatten, ?_, ?_⟩
  · rw [writePackets_eq]
    unfold fillDatHeader init
    simp only [List.append_assoc]
    rw [fileU32_append (by decide)]
    simp only [Option.bind_some]
    rw [fileU32_append (by decide)]
    simp only [Option.bind_some]
    rw [if_neg (by simp), fileU32_append (by omega)]
    simp only [Option.bind_some]
    have hstr : fileStrings (writeString odr ++ (writeString model ++ (writeString rev ++ (ps.map packetBytes).flatten)))
        = some ((odr, model, rev), (ps.map packetBytes).flatten) := by
      unfold fileStrings
      rw [fileString_append (by omega)]
      simp only [Option.bind_some]
      rw [fileString_append (by omega)]
      simp only [Option.bind_some]
      rw [fileString_append (by omega)]
      rfl
    rw [hstr]
    simp only [Option.bind_some]
    have hlen : (writeString odr ++ (writeString model ++ writeString rev)).length =
        4 + odr.length + 4 + model.length + 4 + rev.length := by
      simp [writeString]; omega
    rw [if_neg]
    · rw [show writeString odr ++ (writeString model ++ (writeString rev ++ (ps.map packetBytes).flatten)) =
        (writeString odr ++ (writeString model ++ writeString rev)) ++ (ps.map packetBytes).flatten by simp]
      rw [← hlen, List.drop_left]
    · simp [writeString]; omega
  · have := readPackets_flatten ps hp []
    simpa [readPackets_short] using this

/-- Reading members in sequence, from offset `p` on. -/
theorem readFields_flatten (pre : Bytes) (fields : List Bytes) (post : Bytes) :
    readFields (pre ++ fields.flatten ++ post) (pre ++ fields.flatten ++ post).length pre.length
      (fields.map List.length) = some (fields.map Field.val) := by
  induction fields generalizing pre with
  | nil => rfl
  | cons f fs ih =>
    simp only [List.map_cons, readFields]
    rw [if_pos (by simp)]
    have hrd : rd (pre ++ (f :: fs).flatten ++ post) pre.length f.length = some f := by
      unfold rd
      rw [if_pos (by simp)]
      simp
    rw [hrd]
    have := ih (pre ++ f)
    simp only [List.append_assoc, List.length_append, List.flatten_cons] at this ⊢
    rw [this]

/-- **C14**: the members of a packet are read back with their values. -/
theorem fields_round_trip (id : Nat) (fields : List Bytes) :
    readPacket ⟨id, writeFields fields⟩ (fields.map List.length) = some (fields.map Field.val) := by
  have := readFields_flatten [] fields []
  simpa [readPacket, writeFields] using this

/-- **C14**: recordings of a newer version with more members are read without the additional members, and of an
older version with fewer members get default values for the missing ones. -/
theorem fields_newer (id : Nat) (fields more : List Bytes) :
    readPacket ⟨id, writeFields (fields ++ more)⟩ (fields.map List.length) = some (fields.map Field.val) := by
  have := readFields_flatten [] fields more.flatten
  simpa [readPacket, writeFields] using this

theorem readFields_default (buf : Bytes) (sizes : List Nat) (h : ∀ n ∈ sizes, 0 < n) :
    readFields buf buf.length buf.length sizes = some (sizes.map (fun _ => Field.default)) := by
  induction sizes with
  | nil => rfl
  | cons n r ih =>
    have := h n (by simp)
    simp only [readFields]
    rw [if_neg (by omega), ih (fun m hm => h m (by simp [hm]))]
    rfl

theorem readFields_append (buf : Bytes) (p : Nat) (a b : List Nat) (fa : List Field)
    (ha : readFields buf buf.length p a = some fa) (hall : ∀ f ∈ fa, f ≠ .default) :
    readFields buf buf.length p (a ++ b) = (readFields buf buf.length (p + a.sum) b).map (fa ++ ·) := by
  induction a generalizing p fa with
  | nil => simp [readFields] at ha; subst ha; simp
  | cons n r ih =>
    simp only [readFields, List.cons_append] at ha ⊢
    split at ha
    · next hp =>
      rw [if_pos hp]
      cases h1 : rd buf p n with
      | none => simp [h1] at ha
      | some x =>
        cases h2 : readFields buf buf.length (p + n) r with
        | none => simp [h1, h2] at ha
        | some fs =>
          simp [h1, h2] at ha
          subst ha
          rw [ih (p + n) fs h2 (fun f hf => hall f (by simp [hf]))]
          cases h3 : readFields buf buf.length (p + n + r.sum) b with
          | none => simp [List.sum_cons, ← Nat.add_assoc, h3]
          | some y => simp [List.sum_cons, ← Nat.add_assoc, h3]
    · cases h2 : readFields buf buf.length p r with
      | none => simp [h2] at ha
      | some fs =>
        simp [h2] at ha
        subst ha
        exact absurd rfl (hall .default (by simp))

theorem fields_older (id : Nat) (fields : List Bytes) (missing : List Nat) (h : ∀ n ∈ missing, 0 < n) :
    readPacket ⟨id, writeFields fields⟩ (fields.map List.length ++ missing) =
      some (fields.map Field.val ++ missing.map (fun _ => Field.default)) := by
  unfold readPacket
  have h1 := fields_round_trip id fields
  unfold readPacket at h1
  rw [readFields_append _ _ _ _ _ h1 (by simp)]
  have : 0 + (fields.map List.length).sum = (writeFields fields).length := by
    simp [writeFields, List.length_flatten]
  simp only [this]
  rw [readFields_default _ _ h]
  rfl

/-- **C14**: strings are read back. -/
theorem string_round_trip (id : Nat) (s : Bytes) (h : s.length < 2 ^ 32) :
    readString ⟨id, writeString s⟩ = some s := by
  have l : (encU32 s.length).length = 4 := encU32_length _
  have h1 : rd (encU32 s.length ++ s) 0 4 = some (encU32 s.length) := by
    unfold rd
    rw [if_pos (by simp), List.drop_zero, List.take_append_of_le_length (by omega), List.take_of_length_le (by omega)]
  have h2 : rd (encU32 s.length ++ s) 4 s.length = some s := by
    unfold rd
    rw [if_pos (by simp), List.drop_append_of_le_length (by omega), List.drop_of_length_le (by omega)]
    simp
  unfold readString writeString
  simp only [h1, decLE_encU32 h, h2]

/-- **C14**: vectors of elements of `k` bytes are read back. -/
theorem vector_round_trip (id k : Nat) (hk : 0 < k) (v : List Bytes) (h : ∀ e ∈ v, e.length = k) :
    readVector ⟨id, v.flatten⟩ k = some (some v) := by
  have hlen : ∀ v : List Bytes, (∀ e ∈ v, e.length = k) → v.flatten.length = v.length * k := by
    intro v
    induction v with
    | nil => simp
    | cons e v ih =>
      intro h
      simp only [List.flatten_cons, List.length_append, List.length_cons]
      rw [ih (fun x hx => h x (by simp [hx])), h e (by simp), Nat.add_mul]; omega
  have hl := hlen v h
  have hr : rd v.flatten 0 v.flatten.length = some v.flatten := by
    unfold rd
    rw [if_pos (by omega), List.drop_zero, List.take_length]
  have hmod : ¬ v.flatten.length % k ≠ 0 := by rw [hl]; simp
  unfold readVector
  rw [if_neg hmod]
  simp only [hr]
  rw [hl, Nat.mul_div_cancel _ hk]
  congr 2
  clear hl hr hmod
  induction v with
  | nil => rfl
  | cons e v ih =>
    simp only [List.length_cons, List.range_succ_eq_map, List.map_cons, List.map_map]
    have he := h e (by simp)
    congr 1
    · simp [he]
    · have : ∀ i, ((e :: v).flatten.drop ((i + 1) * k)).take k = (v.flatten.drop (i * k)).take k := by
        intro i
        have e1 : (i + 1) * k = e.length + i * k := by rw [he, Nat.add_mul]; omega
        rw [e1, List.flatten_cons, ← List.drop_drop, List.drop_left]
      have ih' := ih (fun x hx => h x (by simp [hx]))
      conv => rhs; rw [← ih']
      apply List.map_congr_left
      intro i _
      exact this i

/-! ### C15 -/

/-- **C15**: reading members never leaves the payload, whatever the payload and the expected members. -/
theorem readPacket_in_bounds (p : Packet) (sizes : List Nat) : (readPacket p sizes).isSome := by
  have : ∀ off, (readFields p.data p.data.length off sizes).isSome := by
    induction sizes with
    | nil => intro off; rfl
    | cons n r ih =>
      intro off
      simp only [readFields]
      split
      · next h =>
        have h2 := ih (off + n)
        cases hr : readFields p.data p.data.length (off + n) r with
        | none => simp [hr] at h2
        | some fs => simp [rd, h]
      · have h2 := ih off
        cases hr : readFields p.data p.data.length off r with
        | none => simp [hr] at h2
        | some fs => simp
  exact this 0

/-- **C15**: reading a vector never leaves the payload. -/
theorem readVector_in_bounds (p : Packet) (k : Nat) : (readVector p k).isSome := by
  unfold readVector rd
  split
  · rfl
  · simp

/-- **C15** (holds only for consistent string packets): reading a string stays inside the payload iff the length
stored in it does. -/
theorem readString_in_bounds_partial (p : Packet) :
    (readString p).isSome ↔ 4 ≤ p.data.length ∧ 4 + decLE (p.data.take 4) ≤ p.data.length := by
  unfold readString rd
  by_cases h : 0 + 4 ≤ p.data.length
  · rw [if_pos h]
    simp only [List.drop_zero]
    by_cases h2 : 4 + decLE (p.data.take 4) ≤ p.data.length
    · rw [if_pos h2]; simp; omega
    · rw [if_neg h2]; simp; omega
  · rw [if_neg h]; simp; omega

/-- **C15** is violated: there is a recording whose name packet makes the reader read outside the payload. -/
theorem readString_out_of_bounds_fails : ∃ file p, readPackets file = [p] ∧ p.id = 6 ∧ readString p = none := by
  refine ⟨writePackets [] [⟨6, [255, 0, 0, 0, 65]⟩], ⟨6, [255, 0, 0, 0, 65]⟩, ?_, rfl, by decide⟩
  exact packets_round_trip _ (by simp [Packet.Fits])

/-- The file contains `b` as contiguous bytes. -/
def Inside (b file : Bytes) : Prop := ∃ pre post, file = pre ++ b ++ post

/-- **C15** (holds only if the file has not been cut inside a payload): each packet read either is a piece of the
file, or is the last one and was completed with zeros. -/
theorem packets_inside_partial (file : Bytes) (p : Packet) (hp : p ∈ readPackets file) :
    Inside p.data file ∨ ∃ b k, 0 < k ∧ p.data = b ++ List.replicate k 0 ∧ (∃ pre, file = pre ++ b) ∧
      (readPackets file).getLast? = some p := by
  induction hn : file.length using Nat.strongRecOn generalizing file with
  | _ n ih =>
    rw [readPackets_unfold] at hp
    cases hh : readHeader file with
    | none => simp [hh] at hp
    | some x =>
      obtain ⟨id, size, rest⟩ := x
      have hlt := readHeader_length hh
      obtain ⟨pre0, hpre0⟩ : ∃ pre, file = pre ++ rest := by
        unfold readHeader at hh
        split at hh
        · simp at hh
        · simp at hh; exact ⟨file.take 8, by rw [← hh.2.2]; simp⟩
      simp only [hh, List.mem_cons] at hp
      rcases hp with rfl | hp
      · by_cases hs : size ≤ rest.length
        · left
          refine ⟨pre0, rest.drop size, ?_⟩
          have : size - rest.length = 0 := by omega
          simp [createGenericPacket, this, hpre0]
        · right
          refine ⟨rest.take size, size - rest.length, by omega, rfl, ⟨pre0, ?_⟩, ?_⟩
          · rw [List.take_of_length_le (by omega)]; exact hpre0
          · rw [readPackets_unfold, hh]
            simp only
            rw [readPackets_short]
            · rfl
            · simp [createGenericPacket]; omega
      · have hlen : (createGenericPacket id size rest).2.length < n := by
          simp [createGenericPacket]; omega
        rcases ih _ hlen _ hp rfl with ⟨pre, post, h⟩ | ⟨b, k, hk, hb, ⟨pre, h⟩, hl⟩
        · left
          refine ⟨pre0 ++ rest.take size ++ pre, post, ?_⟩
          simp only [createGenericPacket] at h
          rw [hpre0, List.append_assoc, List.append_assoc, List.append_assoc]
          congr 1
          conv => lhs; rw [← List.take_append_drop size rest, h]
          simp
        · right
          refine ⟨b, k, hk, hb, ⟨pre0 ++ rest.take size ++ pre, ?_⟩, ?_⟩
          · simp only [createGenericPacket] at h
            rw [hpre0, List.append_assoc, List.append_assoc]
            congr 1
            conv => lhs; rw [← List.take_append_drop size rest, h]
          · rw [readPackets_unfold, hh]
            simp only
            rw [List.getLast?_cons, hl]
            rfl

/-- **C15** is violated: a recording cut inside a payload is accepted and read with invented data. -/
theorem truncated_packet_fails : ∃ ps n q, (∀ p ∈ ps, Packet.Fits p) ∧
    readPackets ((writePackets [] ps).take n) = [q] ∧ q ∉ ps ∧ q.id = 7 ∧ q.data = [1, 2, 0, 0, 0, 0, 0, 0] := by
  refine ⟨[⟨7, [1, 2, 3, 4, 5, 6, 7, 8]⟩], 10, ⟨7, [1, 2, 0, 0, 0, 0, 0, 0]⟩, by simp [Packet.Fits], ?_, by decide, rfl, rfl⟩
  rw [readPackets_unfold]
  have h : readHeader ((writePackets [] [⟨7, [1, 2, 3, 4, 5, 6, 7, 8]⟩]).take 10) = some (7, 8, [1, 2]) := by decide
  rw [h]
  simp only [createGenericPacket]
  rw [readPackets_short _ (by simp)]
  simp

/-- **C15**: of a recording that was cut anywhere, all packets before the cut are read correctly, and at most one
other packet is read. -/
theorem truncated_prefix_partial (ps : List Packet) (hp : ∀ p ∈ ps, p.Fits) (n : Nat) :
    ∃ k tail, readPackets ((writePackets [] ps).take n) = ps.take k ++ tail ∧ tail.length ≤ 1 ∧
      (((ps.take (k + 1)).map packetBytes).flatten.length ≤ n → ps.length ≤ k) := by
  rw [writePackets_eq, List.nil_append]
  induction ps generalizing n with
  | nil => exact ⟨0, [], by simp [readPackets_short], by simp, by simp⟩
  | cons p ps ih =>
    by_cases hn : (packetBytes p).length ≤ n
    · obtain ⟨k, tail, h1, h2, h3⟩ := ih (fun q hq => hp q (by simp [hq])) (n - (packetBytes p).length)
      refine ⟨k + 1, tail, ?_, h2, ?_⟩
      · rw [List.map_cons, List.flatten_cons, List.take_append, List.take_of_length_le hn,
          readPackets_cons p (hp p (by simp)), h1]
        simp
      · intro h
        simp only [List.take_succ_cons, List.map_cons, List.flatten_cons, List.length_append] at h
        have := h3 (by omega)
        simp; omega
    · refine ⟨0, readPackets ((List.map packetBytes (p :: ps)).flatten.take n), by simp, ?_, ?_⟩
      · rw [List.map_cons, List.flatten_cons, List.take_append_of_le_length (by omega)]
        by_cases h8 : n < 8
        · rw [readPackets_short _ (by simp; omega)]; simp
        · have hpl : (packetBytes p).length = 8 + p.data.length := by simp [packetBytes]; omega
          have hf := hp p (by simp)
          have hh : readHeader ((packetBytes p).take n) = some (p.id, p.data.length, p.data.take (n - 8)) := by
            have := readHeader_packet p hf []
            unfold readHeader at this ⊢
            rw [if_neg (by simp; omega)] at this
            rw [if_neg (by simp; omega)]
            simp only [List.append_nil, Option.some.injEq, Prod.mk.injEq] at this
            rw [List.take_take, Nat.min_eq_left (by omega), List.drop_take, List.take_take,
              Nat.min_eq_left (by omega), List.drop_take, this.1, this.2.1, this.2.2]
          rw [readPackets_unfold, hh]
          simp only
          rw [readPackets_short]
          · simp
          · simp [createGenericPacket]; omega
      · intro h
        simp only [Nat.zero_add, List.take_succ_cons, List.take_zero, List.map_cons, List.map_nil, List.flatten_cons,
          List.flatten_nil, List.append_nil] at h
        omega

end Verif.Dat
