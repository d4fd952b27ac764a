import Verif.Ksy.Conform.Base
/-
Generated by tools/mkconform.py: the schema of `DmrData` against the model of the Python classes.
-/

set_option linter.unusedSimpArgs false
set_option maxHeartbeats 1000000

namespace Dmr.Ksy.Etsi

/-- okdmr/kaitai/etsi/dmr_data.ksy:8-16 against `Dmr.Etsi.DmrData.Rate34Confirmed`. -/
@[ksy ↓] theorem DmrData_Rate34Confirmed_conforms (n : Nat) (sc : Scope) :
    parse (n + 1) sc Etsi.DmrData.Rate34Confirmed = (fun x => view (Dmr.Etsi.DmrData.Rate34Confirmed.toPy x)) <$> Dmr.Etsi.DmrData.Rate34Confirmed.read := by
  rw [parse_succ]
  ksy_simp [Dmr.Etsi.DmrData.Rate34Confirmed.read, Dmr.Etsi.DmrData.Rate34Confirmed.toPy]

/-- okdmr/kaitai/etsi/dmr_data.ksy:18-22 against `Dmr.Etsi.DmrData.Rate34Unconfirmed`. -/
@[ksy ↓] theorem DmrData_Rate34Unconfirmed_conforms (n : Nat) (sc : Scope) :
    parse (n + 1) sc Etsi.DmrData.Rate34Unconfirmed = (fun x => view (Dmr.Etsi.DmrData.Rate34Unconfirmed.toPy x)) <$> Dmr.Etsi.DmrData.Rate34Unconfirmed.read := by
  rw [parse_succ]
  ksy_simp [Dmr.Etsi.DmrData.Rate34Unconfirmed.read, Dmr.Etsi.DmrData.Rate34Unconfirmed.toPy]

/-- okdmr/kaitai/etsi/dmr_data.ksy:24-34 against `Dmr.Etsi.DmrData.Rate34LastBlockConfirmed`. -/
@[ksy ↓] theorem DmrData_Rate34LastBlockConfirmed_conforms (n : Nat) (sc : Scope) :
    parse (n + 1) sc Etsi.DmrData.Rate34LastBlockConfirmed = (fun x => view (Dmr.Etsi.DmrData.Rate34LastBlockConfirmed.toPy x)) <$> Dmr.Etsi.DmrData.Rate34LastBlockConfirmed.read := by
  rw [parse_succ]
  ksy_simp [Dmr.Etsi.DmrData.Rate34LastBlockConfirmed.read, Dmr.Etsi.DmrData.Rate34LastBlockConfirmed.toPy]

/-- okdmr/kaitai/etsi/dmr_data.ksy:36-42 against `Dmr.Etsi.DmrData.Rate34LastBlockUnconfirmed`. -/
@[ksy ↓] theorem DmrData_Rate34LastBlockUnconfirmed_conforms (n : Nat) (sc : Scope) :
    parse (n + 1) sc Etsi.DmrData.Rate34LastBlockUnconfirmed = (fun x => view (Dmr.Etsi.DmrData.Rate34LastBlockUnconfirmed.toPy x)) <$> Dmr.Etsi.DmrData.Rate34LastBlockUnconfirmed.read := by
  rw [parse_succ]
  ksy_simp [Dmr.Etsi.DmrData.Rate34LastBlockUnconfirmed.read, Dmr.Etsi.DmrData.Rate34LastBlockUnconfirmed.toPy]

/-- okdmr/kaitai/etsi/dmr_data.ksy:44-52 against `Dmr.Etsi.DmrData.Rate12Confirmed`. -/
@[ksy ↓] theorem DmrData_Rate12Confirmed_conforms (n : Nat) (sc : Scope) :
    parse (n + 1) sc Etsi.DmrData.Rate12Confirmed = (fun x => view (Dmr.Etsi.DmrData.Rate12Confirmed.toPy x)) <$> Dmr.Etsi.DmrData.Rate12Confirmed.read := by
  rw [parse_succ]
  ksy_simp [Dmr.Etsi.DmrData.Rate12Confirmed.read, Dmr.Etsi.DmrData.Rate12Confirmed.toPy]

/-- okdmr/kaitai/etsi/dmr_data.ksy:54-58 against `Dmr.Etsi.DmrData.Rate12Unconfirmed`. -/
@[ksy ↓] theorem DmrData_Rate12Unconfirmed_conforms (n : Nat) (sc : Scope) :
    parse (n + 1) sc Etsi.DmrData.Rate12Unconfirmed = (fun x => view (Dmr.Etsi.DmrData.Rate12Unconfirmed.toPy x)) <$> Dmr.Etsi.DmrData.Rate12Unconfirmed.read := by
  rw [parse_succ]
  ksy_simp [Dmr.Etsi.DmrData.Rate12Unconfirmed.read, Dmr.Etsi.DmrData.Rate12Unconfirmed.toPy]

/-- okdmr/kaitai/etsi/dmr_data.ksy:60-70 against `Dmr.Etsi.DmrData.Rate12LastBlockConfirmed`. -/
@[ksy ↓] theorem DmrData_Rate12LastBlockConfirmed_conforms (n : Nat) (sc : Scope) :
    parse (n + 1) sc Etsi.DmrData.Rate12LastBlockConfirmed = (fun x => view (Dmr.Etsi.DmrData.Rate12LastBlockConfirmed.toPy x)) <$> Dmr.Etsi.DmrData.Rate12LastBlockConfirmed.read := by
  rw [parse_succ]
  ksy_simp [Dmr.Etsi.DmrData.Rate12LastBlockConfirmed.read, Dmr.Etsi.DmrData.Rate12LastBlockConfirmed.toPy]

/-- okdmr/kaitai/etsi/dmr_data.ksy:72-78 against `Dmr.Etsi.DmrData.Rate12LastBlockUnconfirmed`. -/
@[ksy ↓] theorem DmrData_Rate12LastBlockUnconfirmed_conforms (n : Nat) (sc : Scope) :
    parse (n + 1) sc Etsi.DmrData.Rate12LastBlockUnconfirmed = (fun x => view (Dmr.Etsi.DmrData.Rate12LastBlockUnconfirmed.toPy x)) <$> Dmr.Etsi.DmrData.Rate12LastBlockUnconfirmed.read := by
  rw [parse_succ]
  ksy_simp [Dmr.Etsi.DmrData.Rate12LastBlockUnconfirmed.read, Dmr.Etsi.DmrData.Rate12LastBlockUnconfirmed.toPy]

/-- okdmr/kaitai/etsi/dmr_data.ksy:80-86 against `Dmr.Etsi.DmrData.UdtLastBlock`. -/
@[ksy ↓] theorem DmrData_UdtLastBlock_conforms (n : Nat) (sc : Scope) :
    parse (n + 1) sc Etsi.DmrData.UdtLastBlock = (fun x => view (Dmr.Etsi.DmrData.UdtLastBlock.toPy x)) <$> Dmr.Etsi.DmrData.UdtLastBlock.read := by
  rw [parse_succ]
  ksy_simp [Dmr.Etsi.DmrData.UdtLastBlock.read, Dmr.Etsi.DmrData.UdtLastBlock.toPy]

/-- okdmr/kaitai/etsi/dmr_data.ksy:88-96 against `Dmr.Etsi.DmrData.Rate1Confirmed`. -/
@[ksy ↓] theorem DmrData_Rate1Confirmed_conforms (n : Nat) (sc : Scope) :
    parse (n + 1) sc Etsi.DmrData.Rate1Confirmed = (fun x => view (Dmr.Etsi.DmrData.Rate1Confirmed.toPy x)) <$> Dmr.Etsi.DmrData.Rate1Confirmed.read := by
  rw [parse_succ]
  ksy_simp [Dmr.Etsi.DmrData.Rate1Confirmed.read, Dmr.Etsi.DmrData.Rate1Confirmed.toPy]

/-- okdmr/kaitai/etsi/dmr_data.ksy:98-102 against `Dmr.Etsi.DmrData.Rate1Unconfirmed`. -/
@[ksy ↓] theorem DmrData_Rate1Unconfirmed_conforms (n : Nat) (sc : Scope) :
    parse (n + 1) sc Etsi.DmrData.Rate1Unconfirmed = (fun x => view (Dmr.Etsi.DmrData.Rate1Unconfirmed.toPy x)) <$> Dmr.Etsi.DmrData.Rate1Unconfirmed.read := by
  rw [parse_succ]
  ksy_simp [Dmr.Etsi.DmrData.Rate1Unconfirmed.read, Dmr.Etsi.DmrData.Rate1Unconfirmed.toPy]

/-- okdmr/kaitai/etsi/dmr_data.ksy:104-114 against `Dmr.Etsi.DmrData.Rate1LastBlockConfirmed`. -/
@[ksy ↓] theorem DmrData_Rate1LastBlockConfirmed_conforms (n : Nat) (sc : Scope) :
    parse (n + 1) sc Etsi.DmrData.Rate1LastBlockConfirmed = (fun x => view (Dmr.Etsi.DmrData.Rate1LastBlockConfirmed.toPy x)) <$> Dmr.Etsi.DmrData.Rate1LastBlockConfirmed.read := by
  rw [parse_succ]
  ksy_simp [Dmr.Etsi.DmrData.Rate1LastBlockConfirmed.read, Dmr.Etsi.DmrData.Rate1LastBlockConfirmed.toPy]

/-- okdmr/kaitai/etsi/dmr_data.ksy:116-122 against `Dmr.Etsi.DmrData.Rate1LastBlockUnconfirmed`. -/
@[ksy ↓] theorem DmrData_Rate1LastBlockUnconfirmed_conforms (n : Nat) (sc : Scope) :
    parse (n + 1) sc Etsi.DmrData.Rate1LastBlockUnconfirmed = (fun x => view (Dmr.Etsi.DmrData.Rate1LastBlockUnconfirmed.toPy x)) <$> Dmr.Etsi.DmrData.Rate1LastBlockUnconfirmed.read := by
  rw [parse_succ]
  ksy_simp [Dmr.Etsi.DmrData.Rate1LastBlockUnconfirmed.read, Dmr.Etsi.DmrData.Rate1LastBlockUnconfirmed.toPy]

/-- okdmr/kaitai/etsi/dmr_data.ksy:1-122 against `Dmr.Etsi.DmrData`. -/
@[ksy ↓] theorem DmrData_conforms (n : Nat) (sc : Scope) :
    parse (n + 1) sc Etsi.DmrData = (fun x => view (Dmr.Etsi.DmrData.toPy x)) <$> Dmr.Etsi.DmrData.read := by
  rw [parse_succ]
  ksy_simp [Dmr.Etsi.DmrData.read, Dmr.Etsi.DmrData.toPy]

end Dmr.Ksy.Etsi
