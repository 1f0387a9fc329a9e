/-
Byte level of the .dat recording: PacketHandler.hpp/.cpp
(/repo/EnvironmentSimulator/Modules/ScenarioEngine/SourceFiles).

Simplifications: little-endian machine, `unsigned int` has four bytes, `struct PacketHeader` has no padding;
a file is the list of its bytes and opening it succeeds; memory allocation never fails.
Reading outside a buffer is undefined behaviour and modelled by `none`.
-/
namespace Verif.Dat

abbrev Bytes := List UInt8

/-- `memcpy` of the lowest `k` bytes of an integer to a buffer. -/
def encLE : Nat → Nat → Bytes
  | 0, _ => []
  | k + 1, n => UInt8.ofNat (n % 256) :: encLE k (n / 256)

/-- `memcpy` of a buffer to an integer. -/
def decLE : Bytes → Nat
  | [] => 0
  | b :: r => b.toNat + 256 * decLE r

def encU32 (n : Nat) : Bytes := encLE 4 n

/-- `struct PacketGeneric` without the redundant size, PacketHandler.hpp:126-130. `header.data_size` is always
`data.size()`: ensured by `Write` (hpp:237-241), `ReWriteToBuffer` (hpp:255-261) and `CreateGenericPacket`
(hpp:320-323). -/
structure Packet where
  id : Nat
  data : Bytes
deriving DecidableEq, Repr

/-- `DatWriter::WritePacket`, PacketHandler.cpp:395-403. -/
def writePacket (file : Bytes) (p : Packet) : Bytes :=
  file ++ encU32 p.id ++ encU32 p.data.length ++ p.data

/-- A sequence of `WritePacket` calls. -/
def writePackets (file : Bytes) (ps : List Packet) : Bytes := ps.foldl writePacket file

/-- `DatReader::ReadFile`, PacketHandler.cpp:530-542: id and size of the next packet and the rest of the file;
`none` is the return value `false`. -/
def readHeader (file : Bytes) : Option (Nat × Nat × Bytes) :=
  if file.length < 8 then none
  else some (decLE (file.take 4), decLE ((file.drop 4).take 4), file.drop 8)

/-- `DatReader::CreateGenericPacket`, PacketHandler.hpp:334-347: the vector is filled with zeros by `resize`
and overwritten with what the file has. At the end of the file no error is reported. -/
def createGenericPacket (id size : Nat) (file : Bytes) : Packet × Bytes :=
  ({ id := id, data := file.take size ++ List.replicate (size - file.length) 0 }, file.drop size)

theorem readHeader_length {file : Bytes} {i n : Nat} {r : Bytes} (h : readHeader file = some (i, n, r)) :
    r.length < file.length := by
  unfold readHeader at h
  split at h
  · simp at h
  · simp at h; obtain ⟨_, _, rfl⟩ := h; simp; omega

/-- The loop `while (ReadFile(header)) { packet = CreateGenericPacket(header); ... }` of
`Replay::ExtractPacketsAsSlices`, Replay.cpp:289-293. -/
def readPackets (file : Bytes) : List Packet :=
  match _h : readHeader file with
  | none => []
  | some (id, size, rest) =>
    (createGenericPacket id size rest).1 :: readPackets (createGenericPacket id size rest).2
termination_by file.length
decreasing_by
  have := readHeader_length _h
  simp [createGenericPacket]; omega

/-- Reading `n` bytes of a buffer at offset `p`; `none` if this leaves the buffer. -/
def rd (buf : Bytes) (p n : Nat) : Option Bytes :=
  if p + n ≤ buf.length then some ((buf.drop p).take n) else none

/-- `DatWriter::Write` for data members of fixed size, PacketHandler.hpp:231-244: each member is given by its bytes. -/
def writeFields (fields : List Bytes) : Bytes := fields.flatten

/-- Result of `safe_copy` for one member: its bytes or the default value. -/
inductive Field where
  | val (b : Bytes)
  | default
deriving DecidableEq, Repr

/-- The fold `(safe_copy(data), ...)` of `DatReader::ReadPacket`, PacketHandler.hpp:346-377, for members of the
given sizes; `p` is `read_ptr - data()`, `e` is `end_ptr - data()`. -/
def readFields (buf : Bytes) (e : Nat) : Nat → List Nat → Option (List Field)
  | _, [] => some []
  | p, n :: r =>
    if p + n ≤ e then
      match rd buf p n, readFields buf e (p + n) r with
      | some b, some fs => some (.val b :: fs)
      | _, _ => none
    else (readFields buf e p r).map (.default :: ·)

/-- `DatReader::ReadPacket`, PacketHandler.hpp:336-391. -/
def readPacket (p : Packet) (sizes : List Nat) : Option (List Field) := readFields p.data p.data.length 0 sizes

/-- `WriteToBuffer(PacketString)`, PacketHandler.hpp:280-287. -/
def writeString (s : Bytes) : Bytes := encU32 s.length ++ s

/-- `DatReader::ReadStringPacket(const PacketGeneric&)`, PacketHandler.cpp:557-566. -/
def readString (p : Packet) : Option Bytes :=
  match rd p.data 0 4 with
  | none => none
  | some b => rd p.data 4 (decLE b)

/-- `DatReader::ReadVectorPacket`, PacketHandler.hpp:394-413, for elements of `k` bytes (`k > 0`).
`some none` is the return value -1. -/
def readVector (p : Packet) (k : Nat) : Option (Option (List Bytes)) :=
  if p.data.length % k ≠ 0 then some none
  else match rd p.data 0 p.data.length with
    | none => none
    | some b => some (some ((List.range (p.data.length / k)).map (fun i => (b.drop (i * k)).take k)))

/-- The header of a recording, `struct DatHeader` (PacketHandler.hpp:67-74). -/
structure Header where
  version_major : Nat
  version_minor : Nat
  odr : Bytes
  model : Bytes
  git_rev : Bytes
deriving DecidableEq, Repr

/-- `DAT_FILE_FORMAT_VERSION_MAJOR/MINOR`, PacketHandler.hpp:8-9. -/
def versionMajor : Nat := 5
def versionMinor : Nat := 3

/-- `DatWriter::Init`, PacketHandler.cpp:14-51. -/
def init (odr model git_rev : Bytes) : Bytes :=
  encU32 versionMajor ++ encU32 versionMinor ++
  encU32 (4 + odr.length + 4 + model.length + 4 + git_rev.length) ++
  writeString odr ++ writeString model ++ writeString git_rev

/-- `file_.read` of an `unsigned int`; `none` if the file is too short. -/
def fileU32 (file : Bytes) : Option (Nat × Bytes) :=
  if file.length < 4 then none else some (decLE (file.take 4), file.drop 4)

/-- `DatReader::ReadStringPacket(std::string&)`, PacketHandler.cpp:568-581; `none` is -1. -/
def fileString (file : Bytes) : Option (Bytes × Bytes) :=
  match fileU32 file with
  | none => none
  | some (n, file) => if file.length < n then none else some (file.take n, file.drop n)

/-- Reading the three strings of the header, PacketHandler.cpp:609-622. -/
def fileStrings (file : Bytes) : Option ((Bytes × Bytes × Bytes) × Bytes) :=
  (fileString file).bind fun a => (fileString a.2).bind fun b => (fileString b.2).map fun c => ((a.1, b.1, c.1), c.2)

/-- `DatReader::FillDatHeader`, PacketHandler.cpp:583-656; `none` is `LOG_ERROR_AND_QUIT`.
The rest of the file starts after the announced header size. -/
def fillDatHeader (file : Bytes) : Option (Header × Bytes) :=
  (fileU32 file).bind fun maj => (fileU32 maj.2).bind fun min =>
  if maj.1 ≠ versionMajor then none else
  (fileU32 min.2).bind fun size => (fileStrings size.2).bind fun s =>
  if size.2.length - s.2.length > size.1 then none
  else some ({ version_major := maj.1, version_minor := min.1, odr := s.1.1, model := s.1.2.1, git_rev := s.1.2.2 },
    size.2.drop size.1)

end Verif.Dat
