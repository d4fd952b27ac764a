import Verif.Layout
import Verif.Spec.Homebrew
import Verif.Enums
/-
The Homebrew decoders read fields where `Verif/Spec/Homebrew.lean` says they are.
-/

namespace Dmr.Homebrew

fixed_layout Homebrew2015.TypeRepeaterLoginResponse 36
fixed_layout Homebrew2015.TypeRepeaterLoginRequest 4
fixed_layout Mmdvm2020.TypeRadioPosition 10
fixed_layout Mmdvm2020.TypeRepeaterLoginResponse 36
fixed_layout Mmdvm2020.TypeRepeaterLoginRequest 4

end Dmr.Homebrew
