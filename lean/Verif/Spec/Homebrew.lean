import Verif.Spec
import Verif.Spec.Text
import Verif.Spec.Parse
import Verif.Model.Homebrew.Homebrew2015
import Verif.Model.Homebrew.Mmdvm2020
/-
Where the fields of the fixed-size Homebrew structures lie: `X.spec b q` is the object that the bytes of `b`
from offset `q` on stand for. Offsets are those of the protocol documents; nothing here reads a stream.
-/

namespace Dmr.Homebrew

/-- `Homebrew2015.TypeRepeaterLoginResponse`, 36 bytes. -/
def Homebrew2015.TypeRepeaterLoginResponse.spec (b : Bytes) (q : Nat) : Homebrew2015.TypeRepeaterLoginResponse where
  repeater_id := u32be b q
  sha256 := slice b (q + 4) 32

/-- `Homebrew2015.TypeRepeaterLoginRequest`, 4 bytes. -/
def Homebrew2015.TypeRepeaterLoginRequest.spec (b : Bytes) (q : Nat) : Homebrew2015.TypeRepeaterLoginRequest where
  repeater_id := u32be b q

/-- `Mmdvm2020.TypeRadioPosition`, 10 bytes. -/
def Mmdvm2020.TypeRadioPosition.spec (b : Bytes) (q : Nat) : Mmdvm2020.TypeRadioPosition where
  radio_id := bitsAt b (8 * q) 24
  reserved := bitsAt b (8 * q + 24) 4
  position_error := resolveEnum _ (bitsAt b (8 * q + 28) 3)
  longitude := bitsAt b (8 * q + 31) 25
  latitude := bitsAt b (8 * q + 56) 24

/-- `Mmdvm2020.TypeRepeaterLoginResponse`, 36 bytes. -/
def Mmdvm2020.TypeRepeaterLoginResponse.spec (b : Bytes) (q : Nat) : Mmdvm2020.TypeRepeaterLoginResponse where
  repeater_id := u32be b q
  sha256 := slice b (q + 4) 32

/-- `Mmdvm2020.TypeRepeaterLoginRequest`, 4 bytes. -/
def Mmdvm2020.TypeRepeaterLoginRequest.spec (b : Bytes) (q : Nat) : Mmdvm2020.TypeRepeaterLoginRequest where
  repeater_id := u32be b q

end Dmr.Homebrew
