import Verif.Gen.Refine2
import Verif.Gen.EncodeEq
import Verif.Msg1
import Verif.ErrorMsg

/-!
# How the library fills the structures it has encoded

Each function gives the C structure the library hands to a generated encoder. The theorems say that they are complete (every
announced string and array element is there) and what the encoders then write is what the model of the library has.
-/

namespace Verif.Gen

/-- the string that is all of a buffer -/
def ZStr.of (b : Bytes) : ZStr := ⟨b.length, some b⟩

@[simp] theorem ZStr.of_bytes (b : Bytes) : (ZStr.of b).bytes = b := by simp [ZStr.of, ZStr.bytes]

theorem ZStr.of_full (b : Bytes) : (ZStr.of b).Full := by simp [ZStr.Full, ZStr.of, ZStr.bytes]

/-- an array of three elements with `l` in front -/
def padded {α : Type} (z : α) (l : List α) : List α := l ++ List.replicate (3 - l.length) z

theorem padded_take {α : Type} (z : α) (l : List α) : (padded z l).take l.length = l := by simp [padded]

theorem padded_length {α : Type} (z : α) (l : List α) : l.length ≤ (padded z l).length := by simp [padded]

/-- A connection identifier. `/repo/library/edhoc_message_1.c:180-195`, `/repo/helpers/src/edhoc_helpers.c:130-150`. -/
def IntStr.ofCid : Cid → IntStr
  | .int v => ⟨v, .zero, true⟩
  | .bstr b => ⟨0, .of b, false⟩

theorem IntStr.ofCid_cid (c : Cid) : (IntStr.ofCid c).cid = c := by cases c <;> simp [IntStr.ofCid, IntStr.cid]

theorem IntStr.ofCid_ok (c : Cid) : (IntStr.ofCid c).isInt = false → (IntStr.ofCid c).str.Full := by
  cases c <;> simp [IntStr.ofCid, ZStr.of_full]

/-- SUITES_I, the suites of an error message. `/repo/library/edhoc_message_1.c:146-173`,
`/repo/library/edhoc_message_error.c:103-135`. -/
def SuitesR.of : Suites → SuitesR
  | .one v => ⟨padded 0 [v], 0, true⟩
  | .list l => ⟨padded 0 l, l.length, false⟩

theorem SuitesR.of_value (s : Suites) : (SuitesR.of s).value = s := by
  cases s with
  | one v => rfl
  | list l => simp only [SuitesR.of, SuitesR.value, Bool.false_eq_true, if_false, padded_take]

theorem SuitesR.of_ok (s : Suites) : (SuitesR.of s).count ≤ (SuitesR.of s).ints.length := by
  cases s with
  | one v => simp [SuitesR.of]
  | list l => exact padded_length ..

/-- EAD items, each with a flag that its value is present. `/repo/library/edhoc_message_1.c:228-250` (always),
`/repo/library/edhoc_message_4.c:238-251` (if the pointer is not NULL), `/repo/library/edhoc_common.c:1085-1110`. -/
def eadOf (ts : List EadTok) : EadArr :=
  (padded .zero (ts.map fun t => match t.value with
    | some v => ⟨t.label, .of v, true⟩
    | none => ⟨t.label, .zero, false⟩), ts.length)

theorem eadOf_take (ts : List EadTok) : (eadOf ts).1.take (eadOf ts).2 = ts.map fun t => match t.value with
    | some v => ⟨t.label, .of v, true⟩
    | none => ⟨t.label, .zero, false⟩ := by
  have := padded_take EadX.zero (ts.map fun t => match t.value with
    | some v => ⟨t.label, .of v, true⟩
    | none => ⟨t.label, .zero, false⟩)
  rw [List.length_map] at this
  exact this

theorem eadOf_items (ts : List EadTok) : items (eadOf ts) = ts := by
  unfold items
  rw [eadOf_take, List.map_map]
  conv => rhs; rw [← List.map_id ts]
  apply List.map_congr_left
  rintro ⟨l, v⟩ -
  cases v <;> simp [EadX.item]

theorem eadOf_ok (ts : List EadTok) : EadOk (eadOf ts) := by
  refine ⟨?_, ?_⟩
  · have := padded_length EadX.zero (ts.map fun t => match t.value with
      | some v => ⟨t.label, .of v, true⟩
      | none => ⟨t.label, .zero, false⟩)
    rw [List.length_map] at this
    exact this
  · rw [eadOf_take]
    intro x hx hp
    obtain ⟨⟨l, v⟩, -, rfl⟩ := List.mem_map.1 hx
    cases v with
    | none => cases hp
    | some v => exact ZStr.of_full v

/-- The structure for message_1. `/repo/library/edhoc_message_1.c:138-254`. -/
def Msg1R.of (m : Msg1) : Msg1R :=
  ⟨m.method, .of m.suites, .of m.gx, .ofCid m.ci, eadOf m.ead, !m.ead.isEmpty⟩

theorem Msg1R.of_input (m : Msg1) : (Msg1R.of m).input = m := by
  simp only [Msg1R.of, Msg1R.input, SuitesR.of_value, ZStr.of_bytes, IntStr.ofCid_cid, eadOf_items]

theorem isEmpty_len {α : Type} (l : List α) : (!l.isEmpty) = decide (l.length ≠ 0) := by cases l <;> simp

theorem Msg1R.of_ok (m : Msg1) : (Msg1R.of m).Ok :=
  ⟨SuitesR.of_ok _, ZStr.of_full _, IntStr.ofCid_ok _, eadOf_ok _, isEmpty_len _⟩

/-- The structure for PLAINTEXT_4. `/repo/library/edhoc_message_4.c:224-253`. -/
def Ptxt4R.of (ts : List EadTok) : Ptxt4R := ⟨eadOf ts, !ts.isEmpty⟩

/-- A certificate chain. `/repo/library/edhoc_common.c:865-895`. -/
def X509R.of : X5chain → X509R
  | .one c => ⟨.of c, ([.zero, .zero, .zero], 0), false⟩
  | .list l => ⟨.zero, (padded .zero (l.map .of), l.length), true⟩

theorem X509R.of_value (x : X5chain) : (X509R.of x).value = x := by
  cases x with
  | one c => simp [X509R.of, X509R.value]
  | list l =>
    have := padded_take ZStr.zero (l.map ZStr.of)
    rw [List.length_map] at this
    simp only [X509R.of, X509R.value, if_true, this, List.map_map]
    congr 1
    conv => rhs; rw [← List.map_id l]
    exact List.map_congr_left fun b _ => ZStr.of_bytes b

theorem X509R.of_ok (x : X5chain) : (X509R.of x).Ok := by
  cases x with
  | one c => exact ZStr.of_full c
  | list l =>
    have h1 := padded_take ZStr.zero (l.map ZStr.of)
    have h2 := padded_length ZStr.zero (l.map ZStr.of)
    rw [List.length_map] at h1 h2
    refine ⟨h2, ?_⟩
    show ∀ z ∈ (padded ZStr.zero (l.map ZStr.of)).take l.length, z.Full
    rw [h1]
    intro z hz
    obtain ⟨b, -, rfl⟩ := List.mem_map.1 hz
    exact ZStr.of_full b

/-- An integer or a string. `/repo/library/edhoc_common.c:838-855, 908-925`. -/
def IntStr.ofValue : IntOrBytes → IntStr
  | .int v => ⟨v, .zero, true⟩
  | .bstr b => ⟨0, .of b, false⟩

theorem IntStr.ofValue_value (c : IntOrBytes) : (IntStr.ofValue c).value = c := by
  cases c <;> simp [IntStr.ofValue, IntStr.value]

theorem IntStr.ofValue_ok (c : IntOrBytes) : (IntStr.ofValue c).isInt = false → (IntStr.ofValue c).str.Full := by
  cases c <;> simp [IntStr.ofValue, ZStr.of_full]

/-- The structure for ID_CRED. `/repo/library/edhoc_common.c:828-926`. -/
def MapR.of (m : CredMap) : MapR where
  kid := match m.kid with | some v => (true, .ofValue v) | none => (false, ⟨0, .zero, true⟩)
  x5chain := match m.x5chain with | some x => (true, .of x) | none => (false, .zero)
  x5t := match m.x5t with | some p => (true, ⟨.ofValue p.1, .of p.2⟩) | none => (false, .zero)

theorem MapR.of_value (m : CredMap) : (MapR.of m).value = m := by
  obtain ⟨k, x, t⟩ := m
  cases k <;> cases x <;> cases t <;>
    simp [MapR.of, MapR.value, IntStr.ofValue_value, X509R.of_value, CertHashR.value]

theorem MapR.of_ok (m : CredMap) : (MapR.of m).Ok := by
  obtain ⟨k, x, t⟩ := m
  refine ⟨?_, ?_, ?_⟩
  · cases k with
    | none => intro h; cases h
    | some v => exact fun _ => IntStr.ofValue_ok v
  · cases x with
    | none => intro h; cases h
    | some x => exact fun _ => X509R.of_ok x
  · cases t with
    | none => intro h; cases h
    | some p => exact fun _ => ⟨IntStr.ofValue_ok _, ZStr.of_full _⟩

/-- ERR_INFO. `/repo/library/edhoc_message_error.c:72-148`. -/
def ErrInfoR.of : ErrInfo → ErrInfoR
  | .text t => ⟨.of t, .zero, .text⟩
  | .suites s => ⟨.zero, .of s, .suites⟩
  | .true_ => ⟨.zero, .zero, .bool⟩

/-- The structure for an error message. `/repo/library/edhoc_message_error.c:68-148`. -/
def ErrMsgR.of (c : Int) (i : Option ErrInfo) : ErrMsgR :=
  ⟨c, match i with | some i => (true, .of i) | none => (false, .zero)⟩

theorem ErrMsgR.of_value (c : Int) (i : Option ErrInfo) : (ErrMsgR.of c i).value = (c, i) := by
  cases i with
  | none => rfl
  | some i => cases i <;> simp [ErrMsgR.of, ErrMsgR.value, ErrInfoR.of, ErrInfoR.value, SuitesR.of_value]

theorem ErrMsgR.of_ok (c : Int) (i : Option ErrInfo) : (ErrMsgR.of c i).info.1 = true → (ErrMsgR.of c i).info.2.Ok := by
  cases i with
  | none => intro h; cases h
  | some i =>
    intro _
    cases i with
    | text t => exact ZStr.of_full t
    | suites s => exact SuitesR.of_ok s
    | true_ => trivial

end Verif.Gen
