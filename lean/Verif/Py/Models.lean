import Verif.Py.Table
import Verif.AmountAll
import Verif.Props.Exceptions
import Verif.LocalList
import Verif.ShiftList
import Verif.LosslessList
/-
Generated by tools/mkpytable.py: the models of the classes are the decoders of the other properties.
-/

set_option autoImplicit false
set_option maxRecDepth 20000

namespace Dmr.Py

theorem objectDecoders_in_table : ∀ d ∈ objectDecoders, (d.name, some ⟨d.Obj, d.read, d.view⟩) ∈ table := by
  unfold objectDecoders
  refine List.forall_mem_cons.2 ⟨List.mem_of_getElem? (i := 64) rfl, ?_⟩
  refine List.forall_mem_cons.2 ⟨List.mem_of_getElem? (i := 66) rfl, ?_⟩
  refine List.forall_mem_cons.2 ⟨List.mem_of_getElem? (i := 65) rfl, ?_⟩
  refine List.forall_mem_cons.2 ⟨List.mem_of_getElem? (i := 67) rfl, ?_⟩
  refine List.forall_mem_cons.2 ⟨List.mem_of_getElem? (i := 68) rfl, ?_⟩
  refine List.forall_mem_cons.2 ⟨List.mem_of_getElem? (i := 69) rfl, ?_⟩
  refine List.forall_mem_cons.2 ⟨List.mem_of_getElem? (i := 70) rfl, ?_⟩
  refine List.forall_mem_cons.2 ⟨List.mem_of_getElem? (i := 71) rfl, ?_⟩
  refine List.forall_mem_cons.2 ⟨List.mem_of_getElem? (i := 72) rfl, ?_⟩
  refine List.forall_mem_cons.2 ⟨List.mem_of_getElem? (i := 73) rfl, ?_⟩
  refine List.forall_mem_cons.2 ⟨List.mem_of_getElem? (i := 74) rfl, ?_⟩
  refine List.forall_mem_cons.2 ⟨List.mem_of_getElem? (i := 75) rfl, ?_⟩
  refine List.forall_mem_cons.2 ⟨List.mem_of_getElem? (i := 76) rfl, ?_⟩
  refine List.forall_mem_cons.2 ⟨List.mem_of_getElem? (i := 77) rfl, ?_⟩
  refine List.forall_mem_cons.2 ⟨List.mem_of_getElem? (i := 78) rfl, ?_⟩
  refine List.forall_mem_cons.2 ⟨List.mem_of_getElem? (i := 79) rfl, ?_⟩
  refine List.forall_mem_cons.2 ⟨List.mem_of_getElem? (i := 80) rfl, ?_⟩
  refine List.forall_mem_cons.2 ⟨List.mem_of_getElem? (i := 81) rfl, ?_⟩
  refine List.forall_mem_cons.2 ⟨List.mem_of_getElem? (i := 82) rfl, ?_⟩
  refine List.forall_mem_cons.2 ⟨List.mem_of_getElem? (i := 83) rfl, ?_⟩
  refine List.forall_mem_cons.2 ⟨List.mem_of_getElem? (i := 84) rfl, ?_⟩
  refine List.forall_mem_cons.2 ⟨List.mem_of_getElem? (i := 85) rfl, ?_⟩
  refine List.forall_mem_cons.2 ⟨List.mem_of_getElem? (i := 86) rfl, ?_⟩
  refine List.forall_mem_cons.2 ⟨List.mem_of_getElem? (i := 87) rfl, ?_⟩
  refine List.forall_mem_cons.2 ⟨List.mem_of_getElem? (i := 88) rfl, ?_⟩
  refine List.forall_mem_cons.2 ⟨List.mem_of_getElem? (i := 89) rfl, ?_⟩
  refine List.forall_mem_cons.2 ⟨List.mem_of_getElem? (i := 90) rfl, ?_⟩
  refine List.forall_mem_cons.2 ⟨List.mem_of_getElem? (i := 91) rfl, ?_⟩
  refine List.forall_mem_cons.2 ⟨List.mem_of_getElem? (i := 92) rfl, ?_⟩
  refine List.forall_mem_cons.2 ⟨List.mem_of_getElem? (i := 93) rfl, ?_⟩
  refine List.forall_mem_cons.2 ⟨List.mem_of_getElem? (i := 94) rfl, ?_⟩
  refine List.forall_mem_cons.2 ⟨List.mem_of_getElem? (i := 95) rfl, ?_⟩
  refine List.forall_mem_cons.2 ⟨List.mem_of_getElem? (i := 96) rfl, ?_⟩
  refine List.forall_mem_cons.2 ⟨List.mem_of_getElem? (i := 97) rfl, ?_⟩
  refine List.forall_mem_cons.2 ⟨List.mem_of_getElem? (i := 98) rfl, ?_⟩
  refine List.forall_mem_cons.2 ⟨List.mem_of_getElem? (i := 99) rfl, ?_⟩
  refine List.forall_mem_cons.2 ⟨List.mem_of_getElem? (i := 100) rfl, ?_⟩
  refine List.forall_mem_cons.2 ⟨List.mem_of_getElem? (i := 101) rfl, ?_⟩
  refine List.forall_mem_cons.2 ⟨List.mem_of_getElem? (i := 102) rfl, ?_⟩
  refine List.forall_mem_cons.2 ⟨List.mem_of_getElem? (i := 103) rfl, ?_⟩
  refine List.forall_mem_cons.2 ⟨List.mem_of_getElem? (i := 104) rfl, ?_⟩
  refine List.forall_mem_cons.2 ⟨List.mem_of_getElem? (i := 105) rfl, ?_⟩
  refine List.forall_mem_cons.2 ⟨List.mem_of_getElem? (i := 114) rfl, ?_⟩
  refine List.forall_mem_cons.2 ⟨List.mem_of_getElem? (i := 115) rfl, ?_⟩
  refine List.forall_mem_cons.2 ⟨List.mem_of_getElem? (i := 107) rfl, ?_⟩
  refine List.forall_mem_cons.2 ⟨List.mem_of_getElem? (i := 108) rfl, ?_⟩
  refine List.forall_mem_cons.2 ⟨List.mem_of_getElem? (i := 109) rfl, ?_⟩
  refine List.forall_mem_cons.2 ⟨List.mem_of_getElem? (i := 110) rfl, ?_⟩
  refine List.forall_mem_cons.2 ⟨List.mem_of_getElem? (i := 111) rfl, ?_⟩
  refine List.forall_mem_cons.2 ⟨List.mem_of_getElem? (i := 112) rfl, ?_⟩
  refine List.forall_mem_cons.2 ⟨List.mem_of_getElem? (i := 113) rfl, ?_⟩
  refine List.forall_mem_cons.2 ⟨List.mem_of_getElem? (i := 116) rfl, ?_⟩
  refine List.forall_mem_cons.2 ⟨List.mem_of_getElem? (i := 117) rfl, ?_⟩
  refine List.forall_mem_cons.2 ⟨List.mem_of_getElem? (i := 118) rfl, ?_⟩
  refine List.forall_mem_cons.2 ⟨List.mem_of_getElem? (i := 119) rfl, ?_⟩
  refine List.forall_mem_cons.2 ⟨List.mem_of_getElem? (i := 130) rfl, ?_⟩
  refine List.forall_mem_cons.2 ⟨List.mem_of_getElem? (i := 131) rfl, ?_⟩
  refine List.forall_mem_cons.2 ⟨List.mem_of_getElem? (i := 121) rfl, ?_⟩
  refine List.forall_mem_cons.2 ⟨List.mem_of_getElem? (i := 122) rfl, ?_⟩
  refine List.forall_mem_cons.2 ⟨List.mem_of_getElem? (i := 123) rfl, ?_⟩
  refine List.forall_mem_cons.2 ⟨List.mem_of_getElem? (i := 124) rfl, ?_⟩
  refine List.forall_mem_cons.2 ⟨List.mem_of_getElem? (i := 125) rfl, ?_⟩
  refine List.forall_mem_cons.2 ⟨List.mem_of_getElem? (i := 126) rfl, ?_⟩
  refine List.forall_mem_cons.2 ⟨List.mem_of_getElem? (i := 127) rfl, ?_⟩
  refine List.forall_mem_cons.2 ⟨List.mem_of_getElem? (i := 128) rfl, ?_⟩
  refine List.forall_mem_cons.2 ⟨List.mem_of_getElem? (i := 129) rfl, ?_⟩
  refine List.forall_mem_cons.2 ⟨List.mem_of_getElem? (i := 132) rfl, ?_⟩
  refine List.forall_mem_cons.2 ⟨List.mem_of_getElem? (i := 133) rfl, ?_⟩
  refine List.forall_mem_cons.2 ⟨List.mem_of_getElem? (i := 51) rfl, ?_⟩
  refine List.forall_mem_cons.2 ⟨List.mem_of_getElem? (i := 0) rfl, ?_⟩
  refine List.forall_mem_cons.2 ⟨List.mem_of_getElem? (i := 1) rfl, ?_⟩
  refine List.forall_mem_cons.2 ⟨List.mem_of_getElem? (i := 3) rfl, ?_⟩
  refine List.forall_mem_cons.2 ⟨List.mem_of_getElem? (i := 5) rfl, ?_⟩
  refine List.forall_mem_cons.2 ⟨List.mem_of_getElem? (i := 6) rfl, ?_⟩
  refine List.forall_mem_cons.2 ⟨List.mem_of_getElem? (i := 7) rfl, ?_⟩
  refine List.forall_mem_cons.2 ⟨List.mem_of_getElem? (i := 8) rfl, ?_⟩
  refine List.forall_mem_cons.2 ⟨List.mem_of_getElem? (i := 9) rfl, ?_⟩
  refine List.forall_mem_cons.2 ⟨List.mem_of_getElem? (i := 10) rfl, ?_⟩
  refine List.forall_mem_cons.2 ⟨List.mem_of_getElem? (i := 52) rfl, ?_⟩
  refine List.forall_mem_cons.2 ⟨List.mem_of_getElem? (i := 61) rfl, ?_⟩
  refine List.forall_mem_cons.2 ⟨List.mem_of_getElem? (i := 58) rfl, ?_⟩
  refine List.forall_mem_cons.2 ⟨List.mem_of_getElem? (i := 57) rfl, ?_⟩
  refine List.forall_mem_cons.2 ⟨List.mem_of_getElem? (i := 60) rfl, ?_⟩
  refine List.forall_mem_cons.2 ⟨List.mem_of_getElem? (i := 59) rfl, ?_⟩
  refine List.forall_mem_cons.2 ⟨List.mem_of_getElem? (i := 56) rfl, ?_⟩
  refine List.forall_mem_cons.2 ⟨List.mem_of_getElem? (i := 62) rfl, ?_⟩
  refine List.forall_mem_cons.2 ⟨List.mem_of_getElem? (i := 48) rfl, ?_⟩
  refine List.forall_mem_cons.2 ⟨List.mem_of_getElem? (i := 41) rfl, ?_⟩
  refine List.forall_mem_cons.2 ⟨List.mem_of_getElem? (i := 42) rfl, ?_⟩
  refine List.forall_mem_cons.2 ⟨List.mem_of_getElem? (i := 45) rfl, ?_⟩
  refine List.forall_mem_cons.2 ⟨List.mem_of_getElem? (i := 47) rfl, ?_⟩
  refine List.forall_mem_cons.2 ⟨List.mem_of_getElem? (i := 40) rfl, ?_⟩
  refine List.forall_mem_cons.2 ⟨List.mem_of_getElem? (i := 46) rfl, ?_⟩
  refine List.forall_mem_cons.2 ⟨List.mem_of_getElem? (i := 49) rfl, ?_⟩
  refine List.forall_mem_cons.2 ⟨List.mem_of_getElem? (i := 63) rfl, ?_⟩
  refine List.forall_mem_cons.2 ⟨List.mem_of_getElem? (i := 26) rfl, ?_⟩
  refine List.forall_mem_cons.2 ⟨List.mem_of_getElem? (i := 33) rfl, ?_⟩
  refine List.forall_mem_cons.2 ⟨List.mem_of_getElem? (i := 15) rfl, ?_⟩
  refine List.forall_mem_cons.2 ⟨List.mem_of_getElem? (i := 28) rfl, ?_⟩
  refine List.forall_mem_cons.2 ⟨List.mem_of_getElem? (i := 23) rfl, ?_⟩
  refine List.forall_mem_cons.2 ⟨List.mem_of_getElem? (i := 24) rfl, ?_⟩
  refine List.forall_mem_cons.2 ⟨List.mem_of_getElem? (i := 37) rfl, ?_⟩
  refine List.forall_mem_cons.2 ⟨List.mem_of_getElem? (i := 32) rfl, ?_⟩
  refine List.forall_mem_cons.2 ⟨List.mem_of_getElem? (i := 31) rfl, ?_⟩
  refine List.forall_mem_cons.2 ⟨List.mem_of_getElem? (i := 29) rfl, ?_⟩
  refine List.forall_mem_cons.2 ⟨List.mem_of_getElem? (i := 35) rfl, ?_⟩
  refine List.forall_mem_cons.2 ⟨List.mem_of_getElem? (i := 21) rfl, ?_⟩
  refine List.forall_mem_cons.2 ⟨List.mem_of_getElem? (i := 27) rfl, ?_⟩
  refine List.forall_mem_cons.2 ⟨List.mem_of_getElem? (i := 36) rfl, ?_⟩
  refine List.forall_mem_cons.2 ⟨List.mem_of_getElem? (i := 38) rfl, ?_⟩
  refine List.forall_mem_cons.2 ⟨List.mem_of_getElem? (i := 25) rfl, ?_⟩
  refine List.forall_mem_cons.2 ⟨List.mem_of_getElem? (i := 22) rfl, ?_⟩
  refine List.forall_mem_cons.2 ⟨List.mem_of_getElem? (i := 30) rfl, ?_⟩
  refine List.forall_mem_cons.2 ⟨List.mem_of_getElem? (i := 34) rfl, ?_⟩
  refine List.forall_mem_cons.2 ⟨List.mem_of_getElem? (i := 39) rfl, ?_⟩
  refine List.forall_mem_cons.2 ⟨List.mem_of_getElem? (i := 11) rfl, ?_⟩
  refine List.forall_mem_cons.2 ⟨List.mem_of_getElem? (i := 12) rfl, ?_⟩
  refine List.forall_mem_cons.2 ⟨List.mem_of_getElem? (i := 13) rfl, ?_⟩
  refine List.forall_mem_cons.2 ⟨List.mem_of_getElem? (i := 14) rfl, ?_⟩
  refine List.forall_mem_cons.2 ⟨List.mem_of_getElem? (i := 16) rfl, ?_⟩
  refine List.forall_mem_cons.2 ⟨List.mem_of_getElem? (i := 17) rfl, ?_⟩
  refine List.forall_mem_cons.2 ⟨List.mem_of_getElem? (i := 18) rfl, ?_⟩
  refine List.forall_mem_cons.2 ⟨List.mem_of_getElem? (i := 19) rfl, ?_⟩
  refine List.forall_mem_cons.2 ⟨List.mem_of_getElem? (i := 20) rfl, ?_⟩
  refine List.forall_mem_cons.2 ⟨List.mem_of_getElem? (i := 50) rfl, ?_⟩
  refine List.forall_mem_cons.2 ⟨List.mem_of_getElem? (i := 53) rfl, ?_⟩
  refine List.forall_mem_cons.2 ⟨List.mem_of_getElem? (i := 54) rfl, ?_⟩
  refine List.forall_mem_cons.2 ⟨List.mem_of_getElem? (i := 55) rfl, ?_⟩
  refine List.forall_mem_cons.2 ⟨List.mem_of_getElem? (i := 136) rfl, ?_⟩
  refine List.forall_mem_cons.2 ⟨List.mem_of_getElem? (i := 141) rfl, ?_⟩
  refine List.forall_mem_cons.2 ⟨List.mem_of_getElem? (i := 138) rfl, ?_⟩
  refine List.forall_mem_cons.2 ⟨List.mem_of_getElem? (i := 135) rfl, ?_⟩
  refine List.forall_mem_cons.2 ⟨List.mem_of_getElem? (i := 137) rfl, ?_⟩
  refine List.forall_mem_cons.2 ⟨List.mem_of_getElem? (i := 140) rfl, ?_⟩
  refine List.forall_mem_cons.2 ⟨List.mem_of_getElem? (i := 142) rfl, ?_⟩
  refine List.forall_mem_cons.2 ⟨List.mem_of_getElem? (i := 153) rfl, ?_⟩
  refine List.forall_mem_cons.2 ⟨List.mem_of_getElem? (i := 148) rfl, ?_⟩
  refine List.forall_mem_cons.2 ⟨List.mem_of_getElem? (i := 149) rfl, ?_⟩
  refine List.forall_mem_cons.2 ⟨List.mem_of_getElem? (i := 151) rfl, ?_⟩
  refine List.forall_mem_cons.2 ⟨List.mem_of_getElem? (i := 145) rfl, ?_⟩
  refine List.forall_mem_cons.2 ⟨List.mem_of_getElem? (i := 143) rfl, ?_⟩
  refine List.forall_mem_cons.2 ⟨List.mem_of_getElem? (i := 144) rfl, ?_⟩
  refine List.forall_mem_cons.2 ⟨List.mem_of_getElem? (i := 155) rfl, ?_⟩
  refine List.forall_mem_cons.2 ⟨List.mem_of_getElem? (i := 146) rfl, ?_⟩
  refine List.forall_mem_cons.2 ⟨List.mem_of_getElem? (i := 147) rfl, ?_⟩
  refine List.forall_mem_cons.2 ⟨List.mem_of_getElem? (i := 150) rfl, ?_⟩
  refine List.forall_mem_cons.2 ⟨List.mem_of_getElem? (i := 152) rfl, ?_⟩
  refine List.forall_mem_cons.2 ⟨List.mem_of_getElem? (i := 154) rfl, ?_⟩
  refine List.forall_mem_cons.2 ⟨List.mem_of_getElem? (i := 156) rfl, ?_⟩
  refine List.forall_mem_cons.2 ⟨List.mem_of_getElem? (i := 157) rfl, ?_⟩
  refine List.forall_mem_cons.2 ⟨List.mem_of_getElem? (i := 161) rfl, ?_⟩
  refine List.forall_mem_cons.2 ⟨List.mem_of_getElem? (i := 160) rfl, ?_⟩
  refine List.forall_mem_cons.2 ⟨List.mem_of_getElem? (i := 165) rfl, ?_⟩
  refine List.forall_mem_cons.2 ⟨List.mem_of_getElem? (i := 163) rfl, ?_⟩
  refine List.forall_mem_cons.2 ⟨List.mem_of_getElem? (i := 164) rfl, ?_⟩
  refine List.forall_mem_cons.2 ⟨List.mem_of_getElem? (i := 166) rfl, ?_⟩
  exact List.forall_mem_nil _

theorem exceptionTable_in_table : ∀ p ∈ exceptionTable, ∃ v, (p.1.name, some ⟨p.1.Obj, p.1.read, v⟩) ∈ table := by
  unfold exceptionTable
  refine List.forall_mem_cons.2 ⟨⟨_, List.mem_of_getElem? (i := 64) rfl⟩, ?_⟩
  refine List.forall_mem_cons.2 ⟨⟨_, List.mem_of_getElem? (i := 66) rfl⟩, ?_⟩
  refine List.forall_mem_cons.2 ⟨⟨_, List.mem_of_getElem? (i := 65) rfl⟩, ?_⟩
  refine List.forall_mem_cons.2 ⟨⟨_, List.mem_of_getElem? (i := 67) rfl⟩, ?_⟩
  refine List.forall_mem_cons.2 ⟨⟨_, List.mem_of_getElem? (i := 68) rfl⟩, ?_⟩
  refine List.forall_mem_cons.2 ⟨⟨_, List.mem_of_getElem? (i := 69) rfl⟩, ?_⟩
  refine List.forall_mem_cons.2 ⟨⟨_, List.mem_of_getElem? (i := 70) rfl⟩, ?_⟩
  refine List.forall_mem_cons.2 ⟨⟨_, List.mem_of_getElem? (i := 71) rfl⟩, ?_⟩
  refine List.forall_mem_cons.2 ⟨⟨_, List.mem_of_getElem? (i := 72) rfl⟩, ?_⟩
  refine List.forall_mem_cons.2 ⟨⟨_, List.mem_of_getElem? (i := 73) rfl⟩, ?_⟩
  refine List.forall_mem_cons.2 ⟨⟨_, List.mem_of_getElem? (i := 74) rfl⟩, ?_⟩
  refine List.forall_mem_cons.2 ⟨⟨_, List.mem_of_getElem? (i := 75) rfl⟩, ?_⟩
  refine List.forall_mem_cons.2 ⟨⟨_, List.mem_of_getElem? (i := 76) rfl⟩, ?_⟩
  refine List.forall_mem_cons.2 ⟨⟨_, List.mem_of_getElem? (i := 77) rfl⟩, ?_⟩
  refine List.forall_mem_cons.2 ⟨⟨_, List.mem_of_getElem? (i := 78) rfl⟩, ?_⟩
  refine List.forall_mem_cons.2 ⟨⟨_, List.mem_of_getElem? (i := 79) rfl⟩, ?_⟩
  refine List.forall_mem_cons.2 ⟨⟨_, List.mem_of_getElem? (i := 80) rfl⟩, ?_⟩
  refine List.forall_mem_cons.2 ⟨⟨_, List.mem_of_getElem? (i := 81) rfl⟩, ?_⟩
  refine List.forall_mem_cons.2 ⟨⟨_, List.mem_of_getElem? (i := 82) rfl⟩, ?_⟩
  refine List.forall_mem_cons.2 ⟨⟨_, List.mem_of_getElem? (i := 83) rfl⟩, ?_⟩
  refine List.forall_mem_cons.2 ⟨⟨_, List.mem_of_getElem? (i := 84) rfl⟩, ?_⟩
  refine List.forall_mem_cons.2 ⟨⟨_, List.mem_of_getElem? (i := 85) rfl⟩, ?_⟩
  refine List.forall_mem_cons.2 ⟨⟨_, List.mem_of_getElem? (i := 86) rfl⟩, ?_⟩
  refine List.forall_mem_cons.2 ⟨⟨_, List.mem_of_getElem? (i := 87) rfl⟩, ?_⟩
  refine List.forall_mem_cons.2 ⟨⟨_, List.mem_of_getElem? (i := 88) rfl⟩, ?_⟩
  refine List.forall_mem_cons.2 ⟨⟨_, List.mem_of_getElem? (i := 89) rfl⟩, ?_⟩
  refine List.forall_mem_cons.2 ⟨⟨_, List.mem_of_getElem? (i := 90) rfl⟩, ?_⟩
  refine List.forall_mem_cons.2 ⟨⟨_, List.mem_of_getElem? (i := 91) rfl⟩, ?_⟩
  refine List.forall_mem_cons.2 ⟨⟨_, List.mem_of_getElem? (i := 92) rfl⟩, ?_⟩
  refine List.forall_mem_cons.2 ⟨⟨_, List.mem_of_getElem? (i := 93) rfl⟩, ?_⟩
  refine List.forall_mem_cons.2 ⟨⟨_, List.mem_of_getElem? (i := 94) rfl⟩, ?_⟩
  refine List.forall_mem_cons.2 ⟨⟨_, List.mem_of_getElem? (i := 95) rfl⟩, ?_⟩
  refine List.forall_mem_cons.2 ⟨⟨_, List.mem_of_getElem? (i := 96) rfl⟩, ?_⟩
  refine List.forall_mem_cons.2 ⟨⟨_, List.mem_of_getElem? (i := 97) rfl⟩, ?_⟩
  refine List.forall_mem_cons.2 ⟨⟨_, List.mem_of_getElem? (i := 98) rfl⟩, ?_⟩
  refine List.forall_mem_cons.2 ⟨⟨_, List.mem_of_getElem? (i := 99) rfl⟩, ?_⟩
  refine List.forall_mem_cons.2 ⟨⟨_, List.mem_of_getElem? (i := 100) rfl⟩, ?_⟩
  refine List.forall_mem_cons.2 ⟨⟨_, List.mem_of_getElem? (i := 101) rfl⟩, ?_⟩
  refine List.forall_mem_cons.2 ⟨⟨_, List.mem_of_getElem? (i := 102) rfl⟩, ?_⟩
  refine List.forall_mem_cons.2 ⟨⟨_, List.mem_of_getElem? (i := 103) rfl⟩, ?_⟩
  refine List.forall_mem_cons.2 ⟨⟨_, List.mem_of_getElem? (i := 104) rfl⟩, ?_⟩
  refine List.forall_mem_cons.2 ⟨⟨_, List.mem_of_getElem? (i := 105) rfl⟩, ?_⟩
  refine List.forall_mem_cons.2 ⟨⟨_, List.mem_of_getElem? (i := 114) rfl⟩, ?_⟩
  refine List.forall_mem_cons.2 ⟨⟨_, List.mem_of_getElem? (i := 115) rfl⟩, ?_⟩
  refine List.forall_mem_cons.2 ⟨⟨_, List.mem_of_getElem? (i := 107) rfl⟩, ?_⟩
  refine List.forall_mem_cons.2 ⟨⟨_, List.mem_of_getElem? (i := 108) rfl⟩, ?_⟩
  refine List.forall_mem_cons.2 ⟨⟨_, List.mem_of_getElem? (i := 109) rfl⟩, ?_⟩
  refine List.forall_mem_cons.2 ⟨⟨_, List.mem_of_getElem? (i := 110) rfl⟩, ?_⟩
  refine List.forall_mem_cons.2 ⟨⟨_, List.mem_of_getElem? (i := 111) rfl⟩, ?_⟩
  refine List.forall_mem_cons.2 ⟨⟨_, List.mem_of_getElem? (i := 112) rfl⟩, ?_⟩
  refine List.forall_mem_cons.2 ⟨⟨_, List.mem_of_getElem? (i := 113) rfl⟩, ?_⟩
  refine List.forall_mem_cons.2 ⟨⟨_, List.mem_of_getElem? (i := 116) rfl⟩, ?_⟩
  refine List.forall_mem_cons.2 ⟨⟨_, List.mem_of_getElem? (i := 117) rfl⟩, ?_⟩
  refine List.forall_mem_cons.2 ⟨⟨_, List.mem_of_getElem? (i := 118) rfl⟩, ?_⟩
  refine List.forall_mem_cons.2 ⟨⟨_, List.mem_of_getElem? (i := 119) rfl⟩, ?_⟩
  refine List.forall_mem_cons.2 ⟨⟨_, List.mem_of_getElem? (i := 130) rfl⟩, ?_⟩
  refine List.forall_mem_cons.2 ⟨⟨_, List.mem_of_getElem? (i := 131) rfl⟩, ?_⟩
  refine List.forall_mem_cons.2 ⟨⟨_, List.mem_of_getElem? (i := 121) rfl⟩, ?_⟩
  refine List.forall_mem_cons.2 ⟨⟨_, List.mem_of_getElem? (i := 122) rfl⟩, ?_⟩
  refine List.forall_mem_cons.2 ⟨⟨_, List.mem_of_getElem? (i := 123) rfl⟩, ?_⟩
  refine List.forall_mem_cons.2 ⟨⟨_, List.mem_of_getElem? (i := 124) rfl⟩, ?_⟩
  refine List.forall_mem_cons.2 ⟨⟨_, List.mem_of_getElem? (i := 125) rfl⟩, ?_⟩
  refine List.forall_mem_cons.2 ⟨⟨_, List.mem_of_getElem? (i := 126) rfl⟩, ?_⟩
  refine List.forall_mem_cons.2 ⟨⟨_, List.mem_of_getElem? (i := 127) rfl⟩, ?_⟩
  refine List.forall_mem_cons.2 ⟨⟨_, List.mem_of_getElem? (i := 128) rfl⟩, ?_⟩
  refine List.forall_mem_cons.2 ⟨⟨_, List.mem_of_getElem? (i := 129) rfl⟩, ?_⟩
  refine List.forall_mem_cons.2 ⟨⟨_, List.mem_of_getElem? (i := 132) rfl⟩, ?_⟩
  refine List.forall_mem_cons.2 ⟨⟨_, List.mem_of_getElem? (i := 133) rfl⟩, ?_⟩
  refine List.forall_mem_cons.2 ⟨⟨_, List.mem_of_getElem? (i := 0) rfl⟩, ?_⟩
  refine List.forall_mem_cons.2 ⟨⟨_, List.mem_of_getElem? (i := 1) rfl⟩, ?_⟩
  refine List.forall_mem_cons.2 ⟨⟨_, List.mem_of_getElem? (i := 3) rfl⟩, ?_⟩
  refine List.forall_mem_cons.2 ⟨⟨_, List.mem_of_getElem? (i := 5) rfl⟩, ?_⟩
  refine List.forall_mem_cons.2 ⟨⟨_, List.mem_of_getElem? (i := 6) rfl⟩, ?_⟩
  refine List.forall_mem_cons.2 ⟨⟨_, List.mem_of_getElem? (i := 7) rfl⟩, ?_⟩
  refine List.forall_mem_cons.2 ⟨⟨_, List.mem_of_getElem? (i := 8) rfl⟩, ?_⟩
  refine List.forall_mem_cons.2 ⟨⟨_, List.mem_of_getElem? (i := 9) rfl⟩, ?_⟩
  refine List.forall_mem_cons.2 ⟨⟨_, List.mem_of_getElem? (i := 10) rfl⟩, ?_⟩
  refine List.forall_mem_cons.2 ⟨⟨_, List.mem_of_getElem? (i := 11) rfl⟩, ?_⟩
  refine List.forall_mem_cons.2 ⟨⟨_, List.mem_of_getElem? (i := 12) rfl⟩, ?_⟩
  refine List.forall_mem_cons.2 ⟨⟨_, List.mem_of_getElem? (i := 13) rfl⟩, ?_⟩
  refine List.forall_mem_cons.2 ⟨⟨_, List.mem_of_getElem? (i := 14) rfl⟩, ?_⟩
  refine List.forall_mem_cons.2 ⟨⟨_, List.mem_of_getElem? (i := 15) rfl⟩, ?_⟩
  refine List.forall_mem_cons.2 ⟨⟨_, List.mem_of_getElem? (i := 16) rfl⟩, ?_⟩
  refine List.forall_mem_cons.2 ⟨⟨_, List.mem_of_getElem? (i := 17) rfl⟩, ?_⟩
  refine List.forall_mem_cons.2 ⟨⟨_, List.mem_of_getElem? (i := 18) rfl⟩, ?_⟩
  refine List.forall_mem_cons.2 ⟨⟨_, List.mem_of_getElem? (i := 19) rfl⟩, ?_⟩
  refine List.forall_mem_cons.2 ⟨⟨_, List.mem_of_getElem? (i := 20) rfl⟩, ?_⟩
  refine List.forall_mem_cons.2 ⟨⟨_, List.mem_of_getElem? (i := 21) rfl⟩, ?_⟩
  refine List.forall_mem_cons.2 ⟨⟨_, List.mem_of_getElem? (i := 22) rfl⟩, ?_⟩
  refine List.forall_mem_cons.2 ⟨⟨_, List.mem_of_getElem? (i := 28) rfl⟩, ?_⟩
  refine List.forall_mem_cons.2 ⟨⟨_, List.mem_of_getElem? (i := 23) rfl⟩, ?_⟩
  refine List.forall_mem_cons.2 ⟨⟨_, List.mem_of_getElem? (i := 24) rfl⟩, ?_⟩
  refine List.forall_mem_cons.2 ⟨⟨_, List.mem_of_getElem? (i := 25) rfl⟩, ?_⟩
  refine List.forall_mem_cons.2 ⟨⟨_, List.mem_of_getElem? (i := 26) rfl⟩, ?_⟩
  refine List.forall_mem_cons.2 ⟨⟨_, List.mem_of_getElem? (i := 27) rfl⟩, ?_⟩
  refine List.forall_mem_cons.2 ⟨⟨_, List.mem_of_getElem? (i := 29) rfl⟩, ?_⟩
  refine List.forall_mem_cons.2 ⟨⟨_, List.mem_of_getElem? (i := 30) rfl⟩, ?_⟩
  refine List.forall_mem_cons.2 ⟨⟨_, List.mem_of_getElem? (i := 31) rfl⟩, ?_⟩
  refine List.forall_mem_cons.2 ⟨⟨_, List.mem_of_getElem? (i := 32) rfl⟩, ?_⟩
  refine List.forall_mem_cons.2 ⟨⟨_, List.mem_of_getElem? (i := 33) rfl⟩, ?_⟩
  refine List.forall_mem_cons.2 ⟨⟨_, List.mem_of_getElem? (i := 34) rfl⟩, ?_⟩
  refine List.forall_mem_cons.2 ⟨⟨_, List.mem_of_getElem? (i := 35) rfl⟩, ?_⟩
  refine List.forall_mem_cons.2 ⟨⟨_, List.mem_of_getElem? (i := 36) rfl⟩, ?_⟩
  refine List.forall_mem_cons.2 ⟨⟨_, List.mem_of_getElem? (i := 37) rfl⟩, ?_⟩
  refine List.forall_mem_cons.2 ⟨⟨_, List.mem_of_getElem? (i := 38) rfl⟩, ?_⟩
  refine List.forall_mem_cons.2 ⟨⟨_, List.mem_of_getElem? (i := 39) rfl⟩, ?_⟩
  refine List.forall_mem_cons.2 ⟨⟨_, List.mem_of_getElem? (i := 40) rfl⟩, ?_⟩
  refine List.forall_mem_cons.2 ⟨⟨_, List.mem_of_getElem? (i := 41) rfl⟩, ?_⟩
  refine List.forall_mem_cons.2 ⟨⟨_, List.mem_of_getElem? (i := 42) rfl⟩, ?_⟩
  refine List.forall_mem_cons.2 ⟨⟨_, List.mem_of_getElem? (i := 45) rfl⟩, ?_⟩
  refine List.forall_mem_cons.2 ⟨⟨_, List.mem_of_getElem? (i := 46) rfl⟩, ?_⟩
  refine List.forall_mem_cons.2 ⟨⟨_, List.mem_of_getElem? (i := 47) rfl⟩, ?_⟩
  refine List.forall_mem_cons.2 ⟨⟨_, List.mem_of_getElem? (i := 48) rfl⟩, ?_⟩
  refine List.forall_mem_cons.2 ⟨⟨_, List.mem_of_getElem? (i := 49) rfl⟩, ?_⟩
  refine List.forall_mem_cons.2 ⟨⟨_, List.mem_of_getElem? (i := 50) rfl⟩, ?_⟩
  refine List.forall_mem_cons.2 ⟨⟨_, List.mem_of_getElem? (i := 51) rfl⟩, ?_⟩
  refine List.forall_mem_cons.2 ⟨⟨_, List.mem_of_getElem? (i := 52) rfl⟩, ?_⟩
  refine List.forall_mem_cons.2 ⟨⟨_, List.mem_of_getElem? (i := 53) rfl⟩, ?_⟩
  refine List.forall_mem_cons.2 ⟨⟨_, List.mem_of_getElem? (i := 54) rfl⟩, ?_⟩
  refine List.forall_mem_cons.2 ⟨⟨_, List.mem_of_getElem? (i := 55) rfl⟩, ?_⟩
  refine List.forall_mem_cons.2 ⟨⟨_, List.mem_of_getElem? (i := 56) rfl⟩, ?_⟩
  refine List.forall_mem_cons.2 ⟨⟨_, List.mem_of_getElem? (i := 57) rfl⟩, ?_⟩
  refine List.forall_mem_cons.2 ⟨⟨_, List.mem_of_getElem? (i := 58) rfl⟩, ?_⟩
  refine List.forall_mem_cons.2 ⟨⟨_, List.mem_of_getElem? (i := 59) rfl⟩, ?_⟩
  refine List.forall_mem_cons.2 ⟨⟨_, List.mem_of_getElem? (i := 60) rfl⟩, ?_⟩
  refine List.forall_mem_cons.2 ⟨⟨_, List.mem_of_getElem? (i := 61) rfl⟩, ?_⟩
  refine List.forall_mem_cons.2 ⟨⟨_, List.mem_of_getElem? (i := 62) rfl⟩, ?_⟩
  refine List.forall_mem_cons.2 ⟨⟨_, List.mem_of_getElem? (i := 63) rfl⟩, ?_⟩
  refine List.forall_mem_cons.2 ⟨⟨_, List.mem_of_getElem? (i := 136) rfl⟩, ?_⟩
  refine List.forall_mem_cons.2 ⟨⟨_, List.mem_of_getElem? (i := 141) rfl⟩, ?_⟩
  refine List.forall_mem_cons.2 ⟨⟨_, List.mem_of_getElem? (i := 138) rfl⟩, ?_⟩
  refine List.forall_mem_cons.2 ⟨⟨_, List.mem_of_getElem? (i := 135) rfl⟩, ?_⟩
  refine List.forall_mem_cons.2 ⟨⟨_, List.mem_of_getElem? (i := 137) rfl⟩, ?_⟩
  refine List.forall_mem_cons.2 ⟨⟨_, List.mem_of_getElem? (i := 140) rfl⟩, ?_⟩
  refine List.forall_mem_cons.2 ⟨⟨_, List.mem_of_getElem? (i := 142) rfl⟩, ?_⟩
  refine List.forall_mem_cons.2 ⟨⟨_, List.mem_of_getElem? (i := 153) rfl⟩, ?_⟩
  refine List.forall_mem_cons.2 ⟨⟨_, List.mem_of_getElem? (i := 148) rfl⟩, ?_⟩
  refine List.forall_mem_cons.2 ⟨⟨_, List.mem_of_getElem? (i := 149) rfl⟩, ?_⟩
  refine List.forall_mem_cons.2 ⟨⟨_, List.mem_of_getElem? (i := 151) rfl⟩, ?_⟩
  refine List.forall_mem_cons.2 ⟨⟨_, List.mem_of_getElem? (i := 145) rfl⟩, ?_⟩
  refine List.forall_mem_cons.2 ⟨⟨_, List.mem_of_getElem? (i := 143) rfl⟩, ?_⟩
  refine List.forall_mem_cons.2 ⟨⟨_, List.mem_of_getElem? (i := 144) rfl⟩, ?_⟩
  refine List.forall_mem_cons.2 ⟨⟨_, List.mem_of_getElem? (i := 155) rfl⟩, ?_⟩
  refine List.forall_mem_cons.2 ⟨⟨_, List.mem_of_getElem? (i := 146) rfl⟩, ?_⟩
  refine List.forall_mem_cons.2 ⟨⟨_, List.mem_of_getElem? (i := 147) rfl⟩, ?_⟩
  refine List.forall_mem_cons.2 ⟨⟨_, List.mem_of_getElem? (i := 150) rfl⟩, ?_⟩
  refine List.forall_mem_cons.2 ⟨⟨_, List.mem_of_getElem? (i := 152) rfl⟩, ?_⟩
  refine List.forall_mem_cons.2 ⟨⟨_, List.mem_of_getElem? (i := 154) rfl⟩, ?_⟩
  refine List.forall_mem_cons.2 ⟨⟨_, List.mem_of_getElem? (i := 156) rfl⟩, ?_⟩
  refine List.forall_mem_cons.2 ⟨⟨_, List.mem_of_getElem? (i := 157) rfl⟩, ?_⟩
  refine List.forall_mem_cons.2 ⟨⟨_, List.mem_of_getElem? (i := 161) rfl⟩, ?_⟩
  refine List.forall_mem_cons.2 ⟨⟨_, List.mem_of_getElem? (i := 160) rfl⟩, ?_⟩
  refine List.forall_mem_cons.2 ⟨⟨_, List.mem_of_getElem? (i := 165) rfl⟩, ?_⟩
  refine List.forall_mem_cons.2 ⟨⟨_, List.mem_of_getElem? (i := 163) rfl⟩, ?_⟩
  refine List.forall_mem_cons.2 ⟨⟨_, List.mem_of_getElem? (i := 164) rfl⟩, ?_⟩
  refine List.forall_mem_cons.2 ⟨⟨_, List.mem_of_getElem? (i := 166) rfl⟩, ?_⟩
  exact List.forall_mem_nil _

theorem sequentialDecoders_in_table : ∀ d ∈ sequentialDecoders, ∃ v, (d.name, some ⟨d.Obj, d.read, v⟩) ∈ table := by
  unfold sequentialDecoders
  refine List.forall_mem_cons.2 ⟨.intro _ (List.mem_of_getElem? (i := 64) rfl), ?_⟩
  refine List.forall_mem_cons.2 ⟨.intro _ (List.mem_of_getElem? (i := 66) rfl), ?_⟩
  refine List.forall_mem_cons.2 ⟨.intro _ (List.mem_of_getElem? (i := 65) rfl), ?_⟩
  refine List.forall_mem_cons.2 ⟨.intro _ (List.mem_of_getElem? (i := 67) rfl), ?_⟩
  refine List.forall_mem_cons.2 ⟨.intro _ (List.mem_of_getElem? (i := 68) rfl), ?_⟩
  refine List.forall_mem_cons.2 ⟨.intro _ (List.mem_of_getElem? (i := 69) rfl), ?_⟩
  refine List.forall_mem_cons.2 ⟨.intro _ (List.mem_of_getElem? (i := 70) rfl), ?_⟩
  refine List.forall_mem_cons.2 ⟨.intro _ (List.mem_of_getElem? (i := 71) rfl), ?_⟩
  refine List.forall_mem_cons.2 ⟨.intro _ (List.mem_of_getElem? (i := 72) rfl), ?_⟩
  refine List.forall_mem_cons.2 ⟨.intro _ (List.mem_of_getElem? (i := 73) rfl), ?_⟩
  refine List.forall_mem_cons.2 ⟨.intro _ (List.mem_of_getElem? (i := 74) rfl), ?_⟩
  refine List.forall_mem_cons.2 ⟨.intro _ (List.mem_of_getElem? (i := 75) rfl), ?_⟩
  refine List.forall_mem_cons.2 ⟨.intro _ (List.mem_of_getElem? (i := 76) rfl), ?_⟩
  refine List.forall_mem_cons.2 ⟨.intro _ (List.mem_of_getElem? (i := 77) rfl), ?_⟩
  refine List.forall_mem_cons.2 ⟨.intro _ (List.mem_of_getElem? (i := 78) rfl), ?_⟩
  refine List.forall_mem_cons.2 ⟨.intro _ (List.mem_of_getElem? (i := 79) rfl), ?_⟩
  refine List.forall_mem_cons.2 ⟨.intro _ (List.mem_of_getElem? (i := 80) rfl), ?_⟩
  refine List.forall_mem_cons.2 ⟨.intro _ (List.mem_of_getElem? (i := 81) rfl), ?_⟩
  refine List.forall_mem_cons.2 ⟨.intro _ (List.mem_of_getElem? (i := 82) rfl), ?_⟩
  refine List.forall_mem_cons.2 ⟨.intro _ (List.mem_of_getElem? (i := 83) rfl), ?_⟩
  refine List.forall_mem_cons.2 ⟨.intro _ (List.mem_of_getElem? (i := 84) rfl), ?_⟩
  refine List.forall_mem_cons.2 ⟨.intro _ (List.mem_of_getElem? (i := 85) rfl), ?_⟩
  refine List.forall_mem_cons.2 ⟨.intro _ (List.mem_of_getElem? (i := 86) rfl), ?_⟩
  refine List.forall_mem_cons.2 ⟨.intro _ (List.mem_of_getElem? (i := 87) rfl), ?_⟩
  refine List.forall_mem_cons.2 ⟨.intro _ (List.mem_of_getElem? (i := 89) rfl), ?_⟩
  refine List.forall_mem_cons.2 ⟨.intro _ (List.mem_of_getElem? (i := 90) rfl), ?_⟩
  refine List.forall_mem_cons.2 ⟨.intro _ (List.mem_of_getElem? (i := 91) rfl), ?_⟩
  refine List.forall_mem_cons.2 ⟨.intro _ (List.mem_of_getElem? (i := 92) rfl), ?_⟩
  refine List.forall_mem_cons.2 ⟨.intro _ (List.mem_of_getElem? (i := 93) rfl), ?_⟩
  refine List.forall_mem_cons.2 ⟨.intro _ (List.mem_of_getElem? (i := 94) rfl), ?_⟩
  refine List.forall_mem_cons.2 ⟨.intro _ (List.mem_of_getElem? (i := 95) rfl), ?_⟩
  refine List.forall_mem_cons.2 ⟨.intro _ (List.mem_of_getElem? (i := 97) rfl), ?_⟩
  refine List.forall_mem_cons.2 ⟨.intro _ (List.mem_of_getElem? (i := 98) rfl), ?_⟩
  refine List.forall_mem_cons.2 ⟨.intro _ (List.mem_of_getElem? (i := 99) rfl), ?_⟩
  refine List.forall_mem_cons.2 ⟨.intro _ (List.mem_of_getElem? (i := 100) rfl), ?_⟩
  refine List.forall_mem_cons.2 ⟨.intro _ (List.mem_of_getElem? (i := 101) rfl), ?_⟩
  refine List.forall_mem_cons.2 ⟨.intro _ (List.mem_of_getElem? (i := 102) rfl), ?_⟩
  refine List.forall_mem_cons.2 ⟨.intro _ (List.mem_of_getElem? (i := 104) rfl), ?_⟩
  refine List.forall_mem_cons.2 ⟨.intro _ (List.mem_of_getElem? (i := 105) rfl), ?_⟩
  refine List.forall_mem_cons.2 ⟨.intro _ (List.mem_of_getElem? (i := 114) rfl), ?_⟩
  refine List.forall_mem_cons.2 ⟨.intro _ (List.mem_of_getElem? (i := 107) rfl), ?_⟩
  refine List.forall_mem_cons.2 ⟨.intro _ (List.mem_of_getElem? (i := 108) rfl), ?_⟩
  refine List.forall_mem_cons.2 ⟨.intro _ (List.mem_of_getElem? (i := 109) rfl), ?_⟩
  refine List.forall_mem_cons.2 ⟨.intro _ (List.mem_of_getElem? (i := 111) rfl), ?_⟩
  refine List.forall_mem_cons.2 ⟨.intro _ (List.mem_of_getElem? (i := 117) rfl), ?_⟩
  refine List.forall_mem_cons.2 ⟨.intro _ (List.mem_of_getElem? (i := 118) rfl), ?_⟩
  refine List.forall_mem_cons.2 ⟨.intro _ (List.mem_of_getElem? (i := 119) rfl), ?_⟩
  refine List.forall_mem_cons.2 ⟨.intro _ (List.mem_of_getElem? (i := 130) rfl), ?_⟩
  refine List.forall_mem_cons.2 ⟨.intro _ (List.mem_of_getElem? (i := 121) rfl), ?_⟩
  refine List.forall_mem_cons.2 ⟨.intro _ (List.mem_of_getElem? (i := 122) rfl), ?_⟩
  refine List.forall_mem_cons.2 ⟨.intro _ (List.mem_of_getElem? (i := 123) rfl), ?_⟩
  refine List.forall_mem_cons.2 ⟨.intro _ (List.mem_of_getElem? (i := 125) rfl), ?_⟩
  refine List.forall_mem_cons.2 ⟨.intro _ (List.mem_of_getElem? (i := 126) rfl), ?_⟩
  refine List.forall_mem_cons.2 ⟨.intro _ (List.mem_of_getElem? (i := 128) rfl), ?_⟩
  refine List.forall_mem_cons.2 ⟨.intro _ (List.mem_of_getElem? (i := 132) rfl), ?_⟩
  refine List.forall_mem_cons.2 ⟨.intro _ (List.mem_of_getElem? (i := 51) rfl), ?_⟩
  refine List.forall_mem_cons.2 ⟨.intro _ (List.mem_of_getElem? (i := 0) rfl), ?_⟩
  refine List.forall_mem_cons.2 ⟨.intro _ (List.mem_of_getElem? (i := 1) rfl), ?_⟩
  refine List.forall_mem_cons.2 ⟨.intro _ (List.mem_of_getElem? (i := 3) rfl), ?_⟩
  refine List.forall_mem_cons.2 ⟨.intro _ (List.mem_of_getElem? (i := 5) rfl), ?_⟩
  refine List.forall_mem_cons.2 ⟨.intro _ (List.mem_of_getElem? (i := 6) rfl), ?_⟩
  refine List.forall_mem_cons.2 ⟨.intro _ (List.mem_of_getElem? (i := 7) rfl), ?_⟩
  refine List.forall_mem_cons.2 ⟨.intro _ (List.mem_of_getElem? (i := 8) rfl), ?_⟩
  refine List.forall_mem_cons.2 ⟨.intro _ (List.mem_of_getElem? (i := 9) rfl), ?_⟩
  refine List.forall_mem_cons.2 ⟨.intro _ (List.mem_of_getElem? (i := 13) rfl), ?_⟩
  refine List.forall_mem_cons.2 ⟨.intro _ (List.mem_of_getElem? (i := 15) rfl), ?_⟩
  refine List.forall_mem_cons.2 ⟨.intro _ (List.mem_of_getElem? (i := 16) rfl), ?_⟩
  refine List.forall_mem_cons.2 ⟨.intro _ (List.mem_of_getElem? (i := 17) rfl), ?_⟩
  refine List.forall_mem_cons.2 ⟨.intro _ (List.mem_of_getElem? (i := 21) rfl), ?_⟩
  refine List.forall_mem_cons.2 ⟨.intro _ (List.mem_of_getElem? (i := 22) rfl), ?_⟩
  refine List.forall_mem_cons.2 ⟨.intro _ (List.mem_of_getElem? (i := 28) rfl), ?_⟩
  refine List.forall_mem_cons.2 ⟨.intro _ (List.mem_of_getElem? (i := 23) rfl), ?_⟩
  refine List.forall_mem_cons.2 ⟨.intro _ (List.mem_of_getElem? (i := 24) rfl), ?_⟩
  refine List.forall_mem_cons.2 ⟨.intro _ (List.mem_of_getElem? (i := 25) rfl), ?_⟩
  refine List.forall_mem_cons.2 ⟨.intro _ (List.mem_of_getElem? (i := 26) rfl), ?_⟩
  refine List.forall_mem_cons.2 ⟨.intro _ (List.mem_of_getElem? (i := 27) rfl), ?_⟩
  refine List.forall_mem_cons.2 ⟨.intro _ (List.mem_of_getElem? (i := 29) rfl), ?_⟩
  refine List.forall_mem_cons.2 ⟨.intro _ (List.mem_of_getElem? (i := 30) rfl), ?_⟩
  refine List.forall_mem_cons.2 ⟨.intro _ (List.mem_of_getElem? (i := 31) rfl), ?_⟩
  refine List.forall_mem_cons.2 ⟨.intro _ (List.mem_of_getElem? (i := 32) rfl), ?_⟩
  refine List.forall_mem_cons.2 ⟨.intro _ (List.mem_of_getElem? (i := 33) rfl), ?_⟩
  refine List.forall_mem_cons.2 ⟨.intro _ (List.mem_of_getElem? (i := 34) rfl), ?_⟩
  refine List.forall_mem_cons.2 ⟨.intro _ (List.mem_of_getElem? (i := 35) rfl), ?_⟩
  refine List.forall_mem_cons.2 ⟨.intro _ (List.mem_of_getElem? (i := 36) rfl), ?_⟩
  refine List.forall_mem_cons.2 ⟨.intro _ (List.mem_of_getElem? (i := 37) rfl), ?_⟩
  refine List.forall_mem_cons.2 ⟨.intro _ (List.mem_of_getElem? (i := 38) rfl), ?_⟩
  refine List.forall_mem_cons.2 ⟨.intro _ (List.mem_of_getElem? (i := 39) rfl), ?_⟩
  refine List.forall_mem_cons.2 ⟨.intro _ (List.mem_of_getElem? (i := 40) rfl), ?_⟩
  refine List.forall_mem_cons.2 ⟨.intro _ (List.mem_of_getElem? (i := 41) rfl), ?_⟩
  refine List.forall_mem_cons.2 ⟨.intro _ (List.mem_of_getElem? (i := 42) rfl), ?_⟩
  refine List.forall_mem_cons.2 ⟨.intro _ (List.mem_of_getElem? (i := 45) rfl), ?_⟩
  refine List.forall_mem_cons.2 ⟨.intro _ (List.mem_of_getElem? (i := 46) rfl), ?_⟩
  refine List.forall_mem_cons.2 ⟨.intro _ (List.mem_of_getElem? (i := 47) rfl), ?_⟩
  refine List.forall_mem_cons.2 ⟨.intro _ (List.mem_of_getElem? (i := 48) rfl), ?_⟩
  refine List.forall_mem_cons.2 ⟨.intro _ (List.mem_of_getElem? (i := 49) rfl), ?_⟩
  refine List.forall_mem_cons.2 ⟨.intro _ (List.mem_of_getElem? (i := 50) rfl), ?_⟩
  refine List.forall_mem_cons.2 ⟨.intro _ (List.mem_of_getElem? (i := 52) rfl), ?_⟩
  refine List.forall_mem_cons.2 ⟨.intro _ (List.mem_of_getElem? (i := 53) rfl), ?_⟩
  refine List.forall_mem_cons.2 ⟨.intro _ (List.mem_of_getElem? (i := 54) rfl), ?_⟩
  refine List.forall_mem_cons.2 ⟨.intro _ (List.mem_of_getElem? (i := 56) rfl), ?_⟩
  refine List.forall_mem_cons.2 ⟨.intro _ (List.mem_of_getElem? (i := 57) rfl), ?_⟩
  refine List.forall_mem_cons.2 ⟨.intro _ (List.mem_of_getElem? (i := 58) rfl), ?_⟩
  refine List.forall_mem_cons.2 ⟨.intro _ (List.mem_of_getElem? (i := 59) rfl), ?_⟩
  refine List.forall_mem_cons.2 ⟨.intro _ (List.mem_of_getElem? (i := 60) rfl), ?_⟩
  refine List.forall_mem_cons.2 ⟨.intro _ (List.mem_of_getElem? (i := 61) rfl), ?_⟩
  refine List.forall_mem_cons.2 ⟨.intro _ (List.mem_of_getElem? (i := 63) rfl), ?_⟩
  refine List.forall_mem_cons.2 ⟨.intro _ (List.mem_of_getElem? (i := 136) rfl), ?_⟩
  refine List.forall_mem_cons.2 ⟨.intro _ (List.mem_of_getElem? (i := 141) rfl), ?_⟩
  refine List.forall_mem_cons.2 ⟨.intro _ (List.mem_of_getElem? (i := 138) rfl), ?_⟩
  refine List.forall_mem_cons.2 ⟨.intro _ (List.mem_of_getElem? (i := 135) rfl), ?_⟩
  refine List.forall_mem_cons.2 ⟨.intro _ (List.mem_of_getElem? (i := 137) rfl), ?_⟩
  refine List.forall_mem_cons.2 ⟨.intro _ (List.mem_of_getElem? (i := 140) rfl), ?_⟩
  refine List.forall_mem_cons.2 ⟨.intro _ (List.mem_of_getElem? (i := 153) rfl), ?_⟩
  refine List.forall_mem_cons.2 ⟨.intro _ (List.mem_of_getElem? (i := 148) rfl), ?_⟩
  refine List.forall_mem_cons.2 ⟨.intro _ (List.mem_of_getElem? (i := 144) rfl), ?_⟩
  refine List.forall_mem_cons.2 ⟨.intro _ (List.mem_of_getElem? (i := 147) rfl), ?_⟩
  refine List.forall_mem_cons.2 ⟨.intro _ (List.mem_of_getElem? (i := 154) rfl), ?_⟩
  refine List.forall_mem_cons.2 ⟨.intro _ (List.mem_of_getElem? (i := 156) rfl), ?_⟩
  refine List.forall_mem_cons.2 ⟨.intro _ (List.mem_of_getElem? (i := 161) rfl), ?_⟩
  refine List.forall_mem_cons.2 ⟨.intro _ (List.mem_of_getElem? (i := 160) rfl), ?_⟩
  refine List.forall_mem_cons.2 ⟨.intro _ (List.mem_of_getElem? (i := 165) rfl), ?_⟩
  refine List.forall_mem_cons.2 ⟨.intro _ (List.mem_of_getElem? (i := 163) rfl), ?_⟩
  refine List.forall_mem_cons.2 ⟨.intro _ (List.mem_of_getElem? (i := 164) rfl), ?_⟩
  exact List.forall_mem_nil _

theorem relocatableDecoders_in_table : ∀ d ∈ relocatableDecoders, ∃ v, (d.name, some ⟨d.Obj, d.read, v⟩) ∈ table := by
  unfold relocatableDecoders
  refine List.forall_mem_cons.2 ⟨.intro _ (List.mem_of_getElem? (i := 64) rfl), ?_⟩
  refine List.forall_mem_cons.2 ⟨.intro _ (List.mem_of_getElem? (i := 66) rfl), ?_⟩
  refine List.forall_mem_cons.2 ⟨.intro _ (List.mem_of_getElem? (i := 65) rfl), ?_⟩
  refine List.forall_mem_cons.2 ⟨.intro _ (List.mem_of_getElem? (i := 67) rfl), ?_⟩
  refine List.forall_mem_cons.2 ⟨.intro _ (List.mem_of_getElem? (i := 68) rfl), ?_⟩
  refine List.forall_mem_cons.2 ⟨.intro _ (List.mem_of_getElem? (i := 69) rfl), ?_⟩
  refine List.forall_mem_cons.2 ⟨.intro _ (List.mem_of_getElem? (i := 70) rfl), ?_⟩
  refine List.forall_mem_cons.2 ⟨.intro _ (List.mem_of_getElem? (i := 71) rfl), ?_⟩
  refine List.forall_mem_cons.2 ⟨.intro _ (List.mem_of_getElem? (i := 72) rfl), ?_⟩
  refine List.forall_mem_cons.2 ⟨.intro _ (List.mem_of_getElem? (i := 73) rfl), ?_⟩
  refine List.forall_mem_cons.2 ⟨.intro _ (List.mem_of_getElem? (i := 74) rfl), ?_⟩
  refine List.forall_mem_cons.2 ⟨.intro _ (List.mem_of_getElem? (i := 75) rfl), ?_⟩
  refine List.forall_mem_cons.2 ⟨.intro _ (List.mem_of_getElem? (i := 76) rfl), ?_⟩
  refine List.forall_mem_cons.2 ⟨.intro _ (List.mem_of_getElem? (i := 77) rfl), ?_⟩
  refine List.forall_mem_cons.2 ⟨.intro _ (List.mem_of_getElem? (i := 78) rfl), ?_⟩
  refine List.forall_mem_cons.2 ⟨.intro _ (List.mem_of_getElem? (i := 79) rfl), ?_⟩
  refine List.forall_mem_cons.2 ⟨.intro _ (List.mem_of_getElem? (i := 80) rfl), ?_⟩
  refine List.forall_mem_cons.2 ⟨.intro _ (List.mem_of_getElem? (i := 81) rfl), ?_⟩
  refine List.forall_mem_cons.2 ⟨.intro _ (List.mem_of_getElem? (i := 82) rfl), ?_⟩
  refine List.forall_mem_cons.2 ⟨.intro _ (List.mem_of_getElem? (i := 83) rfl), ?_⟩
  refine List.forall_mem_cons.2 ⟨.intro _ (List.mem_of_getElem? (i := 84) rfl), ?_⟩
  refine List.forall_mem_cons.2 ⟨.intro _ (List.mem_of_getElem? (i := 85) rfl), ?_⟩
  refine List.forall_mem_cons.2 ⟨.intro _ (List.mem_of_getElem? (i := 86) rfl), ?_⟩
  refine List.forall_mem_cons.2 ⟨.intro _ (List.mem_of_getElem? (i := 87) rfl), ?_⟩
  refine List.forall_mem_cons.2 ⟨.intro _ (List.mem_of_getElem? (i := 88) rfl), ?_⟩
  refine List.forall_mem_cons.2 ⟨.intro _ (List.mem_of_getElem? (i := 89) rfl), ?_⟩
  refine List.forall_mem_cons.2 ⟨.intro _ (List.mem_of_getElem? (i := 90) rfl), ?_⟩
  refine List.forall_mem_cons.2 ⟨.intro _ (List.mem_of_getElem? (i := 91) rfl), ?_⟩
  refine List.forall_mem_cons.2 ⟨.intro _ (List.mem_of_getElem? (i := 92) rfl), ?_⟩
  refine List.forall_mem_cons.2 ⟨.intro _ (List.mem_of_getElem? (i := 93) rfl), ?_⟩
  refine List.forall_mem_cons.2 ⟨.intro _ (List.mem_of_getElem? (i := 94) rfl), ?_⟩
  refine List.forall_mem_cons.2 ⟨.intro _ (List.mem_of_getElem? (i := 95) rfl), ?_⟩
  refine List.forall_mem_cons.2 ⟨.intro _ (List.mem_of_getElem? (i := 96) rfl), ?_⟩
  refine List.forall_mem_cons.2 ⟨.intro _ (List.mem_of_getElem? (i := 97) rfl), ?_⟩
  refine List.forall_mem_cons.2 ⟨.intro _ (List.mem_of_getElem? (i := 98) rfl), ?_⟩
  refine List.forall_mem_cons.2 ⟨.intro _ (List.mem_of_getElem? (i := 99) rfl), ?_⟩
  refine List.forall_mem_cons.2 ⟨.intro _ (List.mem_of_getElem? (i := 100) rfl), ?_⟩
  refine List.forall_mem_cons.2 ⟨.intro _ (List.mem_of_getElem? (i := 101) rfl), ?_⟩
  refine List.forall_mem_cons.2 ⟨.intro _ (List.mem_of_getElem? (i := 102) rfl), ?_⟩
  refine List.forall_mem_cons.2 ⟨.intro _ (List.mem_of_getElem? (i := 104) rfl), ?_⟩
  refine List.forall_mem_cons.2 ⟨.intro _ (List.mem_of_getElem? (i := 105) rfl), ?_⟩
  refine List.forall_mem_cons.2 ⟨.intro _ (List.mem_of_getElem? (i := 114) rfl), ?_⟩
  refine List.forall_mem_cons.2 ⟨.intro _ (List.mem_of_getElem? (i := 115) rfl), ?_⟩
  refine List.forall_mem_cons.2 ⟨.intro _ (List.mem_of_getElem? (i := 107) rfl), ?_⟩
  refine List.forall_mem_cons.2 ⟨.intro _ (List.mem_of_getElem? (i := 108) rfl), ?_⟩
  refine List.forall_mem_cons.2 ⟨.intro _ (List.mem_of_getElem? (i := 109) rfl), ?_⟩
  refine List.forall_mem_cons.2 ⟨.intro _ (List.mem_of_getElem? (i := 110) rfl), ?_⟩
  refine List.forall_mem_cons.2 ⟨.intro _ (List.mem_of_getElem? (i := 111) rfl), ?_⟩
  refine List.forall_mem_cons.2 ⟨.intro _ (List.mem_of_getElem? (i := 112) rfl), ?_⟩
  refine List.forall_mem_cons.2 ⟨.intro _ (List.mem_of_getElem? (i := 113) rfl), ?_⟩
  refine List.forall_mem_cons.2 ⟨.intro _ (List.mem_of_getElem? (i := 117) rfl), ?_⟩
  refine List.forall_mem_cons.2 ⟨.intro _ (List.mem_of_getElem? (i := 118) rfl), ?_⟩
  refine List.forall_mem_cons.2 ⟨.intro _ (List.mem_of_getElem? (i := 119) rfl), ?_⟩
  refine List.forall_mem_cons.2 ⟨.intro _ (List.mem_of_getElem? (i := 130) rfl), ?_⟩
  refine List.forall_mem_cons.2 ⟨.intro _ (List.mem_of_getElem? (i := 131) rfl), ?_⟩
  refine List.forall_mem_cons.2 ⟨.intro _ (List.mem_of_getElem? (i := 121) rfl), ?_⟩
  refine List.forall_mem_cons.2 ⟨.intro _ (List.mem_of_getElem? (i := 122) rfl), ?_⟩
  refine List.forall_mem_cons.2 ⟨.intro _ (List.mem_of_getElem? (i := 123) rfl), ?_⟩
  refine List.forall_mem_cons.2 ⟨.intro _ (List.mem_of_getElem? (i := 124) rfl), ?_⟩
  refine List.forall_mem_cons.2 ⟨.intro _ (List.mem_of_getElem? (i := 125) rfl), ?_⟩
  refine List.forall_mem_cons.2 ⟨.intro _ (List.mem_of_getElem? (i := 126) rfl), ?_⟩
  refine List.forall_mem_cons.2 ⟨.intro _ (List.mem_of_getElem? (i := 127) rfl), ?_⟩
  refine List.forall_mem_cons.2 ⟨.intro _ (List.mem_of_getElem? (i := 128) rfl), ?_⟩
  refine List.forall_mem_cons.2 ⟨.intro _ (List.mem_of_getElem? (i := 129) rfl), ?_⟩
  refine List.forall_mem_cons.2 ⟨.intro _ (List.mem_of_getElem? (i := 132) rfl), ?_⟩
  refine List.forall_mem_cons.2 ⟨.intro _ (List.mem_of_getElem? (i := 51) rfl), ?_⟩
  refine List.forall_mem_cons.2 ⟨.intro _ (List.mem_of_getElem? (i := 0) rfl), ?_⟩
  refine List.forall_mem_cons.2 ⟨.intro _ (List.mem_of_getElem? (i := 1) rfl), ?_⟩
  refine List.forall_mem_cons.2 ⟨.intro _ (List.mem_of_getElem? (i := 3) rfl), ?_⟩
  refine List.forall_mem_cons.2 ⟨.intro _ (List.mem_of_getElem? (i := 5) rfl), ?_⟩
  refine List.forall_mem_cons.2 ⟨.intro _ (List.mem_of_getElem? (i := 6) rfl), ?_⟩
  refine List.forall_mem_cons.2 ⟨.intro _ (List.mem_of_getElem? (i := 7) rfl), ?_⟩
  refine List.forall_mem_cons.2 ⟨.intro _ (List.mem_of_getElem? (i := 8) rfl), ?_⟩
  refine List.forall_mem_cons.2 ⟨.intro _ (List.mem_of_getElem? (i := 9) rfl), ?_⟩
  refine List.forall_mem_cons.2 ⟨.intro _ (List.mem_of_getElem? (i := 10) rfl), ?_⟩
  refine List.forall_mem_cons.2 ⟨.intro _ (List.mem_of_getElem? (i := 13) rfl), ?_⟩
  refine List.forall_mem_cons.2 ⟨.intro _ (List.mem_of_getElem? (i := 15) rfl), ?_⟩
  refine List.forall_mem_cons.2 ⟨.intro _ (List.mem_of_getElem? (i := 16) rfl), ?_⟩
  refine List.forall_mem_cons.2 ⟨.intro _ (List.mem_of_getElem? (i := 17) rfl), ?_⟩
  refine List.forall_mem_cons.2 ⟨.intro _ (List.mem_of_getElem? (i := 18) rfl), ?_⟩
  refine List.forall_mem_cons.2 ⟨.intro _ (List.mem_of_getElem? (i := 20) rfl), ?_⟩
  refine List.forall_mem_cons.2 ⟨.intro _ (List.mem_of_getElem? (i := 21) rfl), ?_⟩
  refine List.forall_mem_cons.2 ⟨.intro _ (List.mem_of_getElem? (i := 22) rfl), ?_⟩
  refine List.forall_mem_cons.2 ⟨.intro _ (List.mem_of_getElem? (i := 28) rfl), ?_⟩
  refine List.forall_mem_cons.2 ⟨.intro _ (List.mem_of_getElem? (i := 23) rfl), ?_⟩
  refine List.forall_mem_cons.2 ⟨.intro _ (List.mem_of_getElem? (i := 24) rfl), ?_⟩
  refine List.forall_mem_cons.2 ⟨.intro _ (List.mem_of_getElem? (i := 25) rfl), ?_⟩
  refine List.forall_mem_cons.2 ⟨.intro _ (List.mem_of_getElem? (i := 26) rfl), ?_⟩
  refine List.forall_mem_cons.2 ⟨.intro _ (List.mem_of_getElem? (i := 27) rfl), ?_⟩
  refine List.forall_mem_cons.2 ⟨.intro _ (List.mem_of_getElem? (i := 29) rfl), ?_⟩
  refine List.forall_mem_cons.2 ⟨.intro _ (List.mem_of_getElem? (i := 30) rfl), ?_⟩
  refine List.forall_mem_cons.2 ⟨.intro _ (List.mem_of_getElem? (i := 31) rfl), ?_⟩
  refine List.forall_mem_cons.2 ⟨.intro _ (List.mem_of_getElem? (i := 32) rfl), ?_⟩
  refine List.forall_mem_cons.2 ⟨.intro _ (List.mem_of_getElem? (i := 33) rfl), ?_⟩
  refine List.forall_mem_cons.2 ⟨.intro _ (List.mem_of_getElem? (i := 34) rfl), ?_⟩
  refine List.forall_mem_cons.2 ⟨.intro _ (List.mem_of_getElem? (i := 35) rfl), ?_⟩
  refine List.forall_mem_cons.2 ⟨.intro _ (List.mem_of_getElem? (i := 36) rfl), ?_⟩
  refine List.forall_mem_cons.2 ⟨.intro _ (List.mem_of_getElem? (i := 37) rfl), ?_⟩
  refine List.forall_mem_cons.2 ⟨.intro _ (List.mem_of_getElem? (i := 38) rfl), ?_⟩
  refine List.forall_mem_cons.2 ⟨.intro _ (List.mem_of_getElem? (i := 39) rfl), ?_⟩
  refine List.forall_mem_cons.2 ⟨.intro _ (List.mem_of_getElem? (i := 40) rfl), ?_⟩
  refine List.forall_mem_cons.2 ⟨.intro _ (List.mem_of_getElem? (i := 41) rfl), ?_⟩
  refine List.forall_mem_cons.2 ⟨.intro _ (List.mem_of_getElem? (i := 42) rfl), ?_⟩
  refine List.forall_mem_cons.2 ⟨.intro _ (List.mem_of_getElem? (i := 45) rfl), ?_⟩
  refine List.forall_mem_cons.2 ⟨.intro _ (List.mem_of_getElem? (i := 46) rfl), ?_⟩
  refine List.forall_mem_cons.2 ⟨.intro _ (List.mem_of_getElem? (i := 47) rfl), ?_⟩
  refine List.forall_mem_cons.2 ⟨.intro _ (List.mem_of_getElem? (i := 48) rfl), ?_⟩
  refine List.forall_mem_cons.2 ⟨.intro _ (List.mem_of_getElem? (i := 49) rfl), ?_⟩
  refine List.forall_mem_cons.2 ⟨.intro _ (List.mem_of_getElem? (i := 50) rfl), ?_⟩
  refine List.forall_mem_cons.2 ⟨.intro _ (List.mem_of_getElem? (i := 52) rfl), ?_⟩
  refine List.forall_mem_cons.2 ⟨.intro _ (List.mem_of_getElem? (i := 53) rfl), ?_⟩
  refine List.forall_mem_cons.2 ⟨.intro _ (List.mem_of_getElem? (i := 54) rfl), ?_⟩
  refine List.forall_mem_cons.2 ⟨.intro _ (List.mem_of_getElem? (i := 56) rfl), ?_⟩
  refine List.forall_mem_cons.2 ⟨.intro _ (List.mem_of_getElem? (i := 57) rfl), ?_⟩
  refine List.forall_mem_cons.2 ⟨.intro _ (List.mem_of_getElem? (i := 58) rfl), ?_⟩
  refine List.forall_mem_cons.2 ⟨.intro _ (List.mem_of_getElem? (i := 59) rfl), ?_⟩
  refine List.forall_mem_cons.2 ⟨.intro _ (List.mem_of_getElem? (i := 60) rfl), ?_⟩
  refine List.forall_mem_cons.2 ⟨.intro _ (List.mem_of_getElem? (i := 61) rfl), ?_⟩
  refine List.forall_mem_cons.2 ⟨.intro _ (List.mem_of_getElem? (i := 63) rfl), ?_⟩
  refine List.forall_mem_cons.2 ⟨.intro _ (List.mem_of_getElem? (i := 136) rfl), ?_⟩
  refine List.forall_mem_cons.2 ⟨.intro _ (List.mem_of_getElem? (i := 141) rfl), ?_⟩
  refine List.forall_mem_cons.2 ⟨.intro _ (List.mem_of_getElem? (i := 138) rfl), ?_⟩
  refine List.forall_mem_cons.2 ⟨.intro _ (List.mem_of_getElem? (i := 135) rfl), ?_⟩
  refine List.forall_mem_cons.2 ⟨.intro _ (List.mem_of_getElem? (i := 137) rfl), ?_⟩
  refine List.forall_mem_cons.2 ⟨.intro _ (List.mem_of_getElem? (i := 140) rfl), ?_⟩
  refine List.forall_mem_cons.2 ⟨.intro _ (List.mem_of_getElem? (i := 142) rfl), ?_⟩
  refine List.forall_mem_cons.2 ⟨.intro _ (List.mem_of_getElem? (i := 153) rfl), ?_⟩
  refine List.forall_mem_cons.2 ⟨.intro _ (List.mem_of_getElem? (i := 148) rfl), ?_⟩
  refine List.forall_mem_cons.2 ⟨.intro _ (List.mem_of_getElem? (i := 144) rfl), ?_⟩
  refine List.forall_mem_cons.2 ⟨.intro _ (List.mem_of_getElem? (i := 147) rfl), ?_⟩
  refine List.forall_mem_cons.2 ⟨.intro _ (List.mem_of_getElem? (i := 154) rfl), ?_⟩
  refine List.forall_mem_cons.2 ⟨.intro _ (List.mem_of_getElem? (i := 156) rfl), ?_⟩
  refine List.forall_mem_cons.2 ⟨.intro _ (List.mem_of_getElem? (i := 161) rfl), ?_⟩
  refine List.forall_mem_cons.2 ⟨.intro _ (List.mem_of_getElem? (i := 160) rfl), ?_⟩
  refine List.forall_mem_cons.2 ⟨.intro _ (List.mem_of_getElem? (i := 165) rfl), ?_⟩
  refine List.forall_mem_cons.2 ⟨.intro _ (List.mem_of_getElem? (i := 163) rfl), ?_⟩
  refine List.forall_mem_cons.2 ⟨.intro _ (List.mem_of_getElem? (i := 164) rfl), ?_⟩
  refine List.forall_mem_cons.2 ⟨.intro _ (List.mem_of_getElem? (i := 166) rfl), ?_⟩
  refine List.forall_mem_cons.2 ⟨.intro _ (List.mem_of_getElem? (i := 149) rfl), ?_⟩
  refine List.forall_mem_cons.2 ⟨.intro _ (List.mem_of_getElem? (i := 155) rfl), ?_⟩
  refine List.forall_mem_cons.2 ⟨.intro _ (List.mem_of_getElem? (i := 151) rfl), ?_⟩
  refine List.forall_mem_cons.2 ⟨.intro _ (List.mem_of_getElem? (i := 145) rfl), ?_⟩
  refine List.forall_mem_cons.2 ⟨.intro _ (List.mem_of_getElem? (i := 143) rfl), ?_⟩
  refine List.forall_mem_cons.2 ⟨.intro _ (List.mem_of_getElem? (i := 152) rfl), ?_⟩
  refine List.forall_mem_cons.2 ⟨.intro _ (List.mem_of_getElem? (i := 146) rfl), ?_⟩
  refine List.forall_mem_cons.2 ⟨.intro _ (List.mem_of_getElem? (i := 150) rfl), ?_⟩
  refine List.forall_mem_cons.2 ⟨.intro _ (List.mem_of_getElem? (i := 157) rfl), ?_⟩
  refine List.forall_mem_cons.2 ⟨.intro _ (List.mem_of_getElem? (i := 55) rfl), ?_⟩
  exact List.forall_mem_nil _

theorem losslessDecoders_in_table : ∀ d ∈ losslessDecoders, (∃ v, (d.name, some ⟨d.Obj, d.read, v⟩) ∈ table) ∨ (d.name, none) ∈ table := by
  unfold losslessDecoders
  refine List.forall_mem_cons.2 ⟨.inl <| .intro _ (List.mem_of_getElem? (i := 64) rfl), ?_⟩
  refine List.forall_mem_cons.2 ⟨.inl <| .intro _ (List.mem_of_getElem? (i := 66) rfl), ?_⟩
  refine List.forall_mem_cons.2 ⟨.inl <| .intro _ (List.mem_of_getElem? (i := 65) rfl), ?_⟩
  refine List.forall_mem_cons.2 ⟨.inl <| .intro _ (List.mem_of_getElem? (i := 67) rfl), ?_⟩
  refine List.forall_mem_cons.2 ⟨.inl <| .intro _ (List.mem_of_getElem? (i := 68) rfl), ?_⟩
  refine List.forall_mem_cons.2 ⟨.inl <| .intro _ (List.mem_of_getElem? (i := 69) rfl), ?_⟩
  refine List.forall_mem_cons.2 ⟨.inl <| .intro _ (List.mem_of_getElem? (i := 70) rfl), ?_⟩
  refine List.forall_mem_cons.2 ⟨.inl <| .intro _ (List.mem_of_getElem? (i := 71) rfl), ?_⟩
  refine List.forall_mem_cons.2 ⟨.inl <| .intro _ (List.mem_of_getElem? (i := 72) rfl), ?_⟩
  refine List.forall_mem_cons.2 ⟨.inl <| .intro _ (List.mem_of_getElem? (i := 73) rfl), ?_⟩
  refine List.forall_mem_cons.2 ⟨.inl <| .intro _ (List.mem_of_getElem? (i := 74) rfl), ?_⟩
  refine List.forall_mem_cons.2 ⟨.inl <| .intro _ (List.mem_of_getElem? (i := 75) rfl), ?_⟩
  refine List.forall_mem_cons.2 ⟨.inl <| .intro _ (List.mem_of_getElem? (i := 76) rfl), ?_⟩
  refine List.forall_mem_cons.2 ⟨.inl <| .intro _ (List.mem_of_getElem? (i := 77) rfl), ?_⟩
  refine List.forall_mem_cons.2 ⟨.inl <| .intro _ (List.mem_of_getElem? (i := 78) rfl), ?_⟩
  refine List.forall_mem_cons.2 ⟨.inl <| .intro _ (List.mem_of_getElem? (i := 79) rfl), ?_⟩
  refine List.forall_mem_cons.2 ⟨.inl <| .intro _ (List.mem_of_getElem? (i := 80) rfl), ?_⟩
  refine List.forall_mem_cons.2 ⟨.inl <| .intro _ (List.mem_of_getElem? (i := 81) rfl), ?_⟩
  refine List.forall_mem_cons.2 ⟨.inl <| .intro _ (List.mem_of_getElem? (i := 82) rfl), ?_⟩
  refine List.forall_mem_cons.2 ⟨.inl <| .intro _ (List.mem_of_getElem? (i := 83) rfl), ?_⟩
  refine List.forall_mem_cons.2 ⟨.inl <| .intro _ (List.mem_of_getElem? (i := 84) rfl), ?_⟩
  refine List.forall_mem_cons.2 ⟨.inl <| .intro _ (List.mem_of_getElem? (i := 85) rfl), ?_⟩
  refine List.forall_mem_cons.2 ⟨.inl <| .intro _ (List.mem_of_getElem? (i := 86) rfl), ?_⟩
  refine List.forall_mem_cons.2 ⟨.inl <| .intro _ (List.mem_of_getElem? (i := 87) rfl), ?_⟩
  refine List.forall_mem_cons.2 ⟨.inl <| .intro _ (List.mem_of_getElem? (i := 88) rfl), ?_⟩
  refine List.forall_mem_cons.2 ⟨.inl <| .intro _ (List.mem_of_getElem? (i := 89) rfl), ?_⟩
  refine List.forall_mem_cons.2 ⟨.inl <| .intro _ (List.mem_of_getElem? (i := 90) rfl), ?_⟩
  refine List.forall_mem_cons.2 ⟨.inl <| .intro _ (List.mem_of_getElem? (i := 91) rfl), ?_⟩
  refine List.forall_mem_cons.2 ⟨.inl <| .intro _ (List.mem_of_getElem? (i := 92) rfl), ?_⟩
  refine List.forall_mem_cons.2 ⟨.inl <| .intro _ (List.mem_of_getElem? (i := 93) rfl), ?_⟩
  refine List.forall_mem_cons.2 ⟨.inl <| .intro _ (List.mem_of_getElem? (i := 94) rfl), ?_⟩
  refine List.forall_mem_cons.2 ⟨.inl <| .intro _ (List.mem_of_getElem? (i := 95) rfl), ?_⟩
  refine List.forall_mem_cons.2 ⟨.inl <| .intro _ (List.mem_of_getElem? (i := 96) rfl), ?_⟩
  refine List.forall_mem_cons.2 ⟨.inl <| .intro _ (List.mem_of_getElem? (i := 97) rfl), ?_⟩
  refine List.forall_mem_cons.2 ⟨.inl <| .intro _ (List.mem_of_getElem? (i := 98) rfl), ?_⟩
  refine List.forall_mem_cons.2 ⟨.inl <| .intro _ (List.mem_of_getElem? (i := 99) rfl), ?_⟩
  refine List.forall_mem_cons.2 ⟨.inl <| .intro _ (List.mem_of_getElem? (i := 100) rfl), ?_⟩
  refine List.forall_mem_cons.2 ⟨.inl <| .intro _ (List.mem_of_getElem? (i := 101) rfl), ?_⟩
  refine List.forall_mem_cons.2 ⟨.inl <| .intro _ (List.mem_of_getElem? (i := 102) rfl), ?_⟩
  refine List.forall_mem_cons.2 ⟨.inl <| .intro _ (List.mem_of_getElem? (i := 104) rfl), ?_⟩
  refine List.forall_mem_cons.2 ⟨.inl <| .intro _ (List.mem_of_getElem? (i := 105) rfl), ?_⟩
  refine List.forall_mem_cons.2 ⟨.inl <| .intro _ (List.mem_of_getElem? (i := 114) rfl), ?_⟩
  refine List.forall_mem_cons.2 ⟨.inl <| .intro _ (List.mem_of_getElem? (i := 115) rfl), ?_⟩
  refine List.forall_mem_cons.2 ⟨.inr <| (List.mem_of_getElem? (i := 106) rfl), ?_⟩
  refine List.forall_mem_cons.2 ⟨.inl <| .intro _ (List.mem_of_getElem? (i := 107) rfl), ?_⟩
  refine List.forall_mem_cons.2 ⟨.inl <| .intro _ (List.mem_of_getElem? (i := 108) rfl), ?_⟩
  refine List.forall_mem_cons.2 ⟨.inl <| .intro _ (List.mem_of_getElem? (i := 109) rfl), ?_⟩
  refine List.forall_mem_cons.2 ⟨.inl <| .intro _ (List.mem_of_getElem? (i := 110) rfl), ?_⟩
  refine List.forall_mem_cons.2 ⟨.inl <| .intro _ (List.mem_of_getElem? (i := 111) rfl), ?_⟩
  refine List.forall_mem_cons.2 ⟨.inl <| .intro _ (List.mem_of_getElem? (i := 112) rfl), ?_⟩
  refine List.forall_mem_cons.2 ⟨.inl <| .intro _ (List.mem_of_getElem? (i := 113) rfl), ?_⟩
  refine List.forall_mem_cons.2 ⟨.inl <| .intro _ (List.mem_of_getElem? (i := 116) rfl), ?_⟩
  refine List.forall_mem_cons.2 ⟨.inl <| .intro _ (List.mem_of_getElem? (i := 117) rfl), ?_⟩
  refine List.forall_mem_cons.2 ⟨.inl <| .intro _ (List.mem_of_getElem? (i := 118) rfl), ?_⟩
  refine List.forall_mem_cons.2 ⟨.inl <| .intro _ (List.mem_of_getElem? (i := 119) rfl), ?_⟩
  refine List.forall_mem_cons.2 ⟨.inl <| .intro _ (List.mem_of_getElem? (i := 130) rfl), ?_⟩
  refine List.forall_mem_cons.2 ⟨.inl <| .intro _ (List.mem_of_getElem? (i := 131) rfl), ?_⟩
  refine List.forall_mem_cons.2 ⟨.inr <| (List.mem_of_getElem? (i := 120) rfl), ?_⟩
  refine List.forall_mem_cons.2 ⟨.inl <| .intro _ (List.mem_of_getElem? (i := 121) rfl), ?_⟩
  refine List.forall_mem_cons.2 ⟨.inl <| .intro _ (List.mem_of_getElem? (i := 122) rfl), ?_⟩
  refine List.forall_mem_cons.2 ⟨.inl <| .intro _ (List.mem_of_getElem? (i := 123) rfl), ?_⟩
  refine List.forall_mem_cons.2 ⟨.inl <| .intro _ (List.mem_of_getElem? (i := 124) rfl), ?_⟩
  refine List.forall_mem_cons.2 ⟨.inl <| .intro _ (List.mem_of_getElem? (i := 125) rfl), ?_⟩
  refine List.forall_mem_cons.2 ⟨.inl <| .intro _ (List.mem_of_getElem? (i := 126) rfl), ?_⟩
  refine List.forall_mem_cons.2 ⟨.inl <| .intro _ (List.mem_of_getElem? (i := 127) rfl), ?_⟩
  refine List.forall_mem_cons.2 ⟨.inl <| .intro _ (List.mem_of_getElem? (i := 128) rfl), ?_⟩
  refine List.forall_mem_cons.2 ⟨.inl <| .intro _ (List.mem_of_getElem? (i := 129) rfl), ?_⟩
  refine List.forall_mem_cons.2 ⟨.inl <| .intro _ (List.mem_of_getElem? (i := 132) rfl), ?_⟩
  refine List.forall_mem_cons.2 ⟨.inl <| .intro _ (List.mem_of_getElem? (i := 133) rfl), ?_⟩
  refine List.forall_mem_cons.2 ⟨.inl <| .intro _ (List.mem_of_getElem? (i := 51) rfl), ?_⟩
  refine List.forall_mem_cons.2 ⟨.inl <| .intro _ (List.mem_of_getElem? (i := 0) rfl), ?_⟩
  refine List.forall_mem_cons.2 ⟨.inl <| .intro _ (List.mem_of_getElem? (i := 1) rfl), ?_⟩
  refine List.forall_mem_cons.2 ⟨.inl <| .intro _ (List.mem_of_getElem? (i := 3) rfl), ?_⟩
  refine List.forall_mem_cons.2 ⟨.inl <| .intro _ (List.mem_of_getElem? (i := 5) rfl), ?_⟩
  refine List.forall_mem_cons.2 ⟨.inl <| .intro _ (List.mem_of_getElem? (i := 6) rfl), ?_⟩
  refine List.forall_mem_cons.2 ⟨.inl <| .intro _ (List.mem_of_getElem? (i := 7) rfl), ?_⟩
  refine List.forall_mem_cons.2 ⟨.inl <| .intro _ (List.mem_of_getElem? (i := 8) rfl), ?_⟩
  refine List.forall_mem_cons.2 ⟨.inl <| .intro _ (List.mem_of_getElem? (i := 9) rfl), ?_⟩
  refine List.forall_mem_cons.2 ⟨.inl <| .intro _ (List.mem_of_getElem? (i := 10) rfl), ?_⟩
  refine List.forall_mem_cons.2 ⟨.inl <| .intro _ (List.mem_of_getElem? (i := 52) rfl), ?_⟩
  refine List.forall_mem_cons.2 ⟨.inl <| .intro _ (List.mem_of_getElem? (i := 61) rfl), ?_⟩
  refine List.forall_mem_cons.2 ⟨.inl <| .intro _ (List.mem_of_getElem? (i := 58) rfl), ?_⟩
  refine List.forall_mem_cons.2 ⟨.inl <| .intro _ (List.mem_of_getElem? (i := 57) rfl), ?_⟩
  refine List.forall_mem_cons.2 ⟨.inl <| .intro _ (List.mem_of_getElem? (i := 60) rfl), ?_⟩
  refine List.forall_mem_cons.2 ⟨.inl <| .intro _ (List.mem_of_getElem? (i := 59) rfl), ?_⟩
  refine List.forall_mem_cons.2 ⟨.inl <| .intro _ (List.mem_of_getElem? (i := 56) rfl), ?_⟩
  refine List.forall_mem_cons.2 ⟨.inl <| .intro _ (List.mem_of_getElem? (i := 62) rfl), ?_⟩
  refine List.forall_mem_cons.2 ⟨.inl <| .intro _ (List.mem_of_getElem? (i := 48) rfl), ?_⟩
  refine List.forall_mem_cons.2 ⟨.inl <| .intro _ (List.mem_of_getElem? (i := 41) rfl), ?_⟩
  refine List.forall_mem_cons.2 ⟨.inl <| .intro _ (List.mem_of_getElem? (i := 42) rfl), ?_⟩
  refine List.forall_mem_cons.2 ⟨.inl <| .intro _ (List.mem_of_getElem? (i := 45) rfl), ?_⟩
  refine List.forall_mem_cons.2 ⟨.inl <| .intro _ (List.mem_of_getElem? (i := 47) rfl), ?_⟩
  refine List.forall_mem_cons.2 ⟨.inl <| .intro _ (List.mem_of_getElem? (i := 40) rfl), ?_⟩
  refine List.forall_mem_cons.2 ⟨.inl <| .intro _ (List.mem_of_getElem? (i := 46) rfl), ?_⟩
  refine List.forall_mem_cons.2 ⟨.inl <| .intro _ (List.mem_of_getElem? (i := 49) rfl), ?_⟩
  refine List.forall_mem_cons.2 ⟨.inl <| .intro _ (List.mem_of_getElem? (i := 63) rfl), ?_⟩
  refine List.forall_mem_cons.2 ⟨.inl <| .intro _ (List.mem_of_getElem? (i := 26) rfl), ?_⟩
  refine List.forall_mem_cons.2 ⟨.inl <| .intro _ (List.mem_of_getElem? (i := 33) rfl), ?_⟩
  refine List.forall_mem_cons.2 ⟨.inl <| .intro _ (List.mem_of_getElem? (i := 15) rfl), ?_⟩
  refine List.forall_mem_cons.2 ⟨.inl <| .intro _ (List.mem_of_getElem? (i := 28) rfl), ?_⟩
  refine List.forall_mem_cons.2 ⟨.inl <| .intro _ (List.mem_of_getElem? (i := 23) rfl), ?_⟩
  refine List.forall_mem_cons.2 ⟨.inl <| .intro _ (List.mem_of_getElem? (i := 24) rfl), ?_⟩
  refine List.forall_mem_cons.2 ⟨.inl <| .intro _ (List.mem_of_getElem? (i := 37) rfl), ?_⟩
  refine List.forall_mem_cons.2 ⟨.inl <| .intro _ (List.mem_of_getElem? (i := 32) rfl), ?_⟩
  refine List.forall_mem_cons.2 ⟨.inl <| .intro _ (List.mem_of_getElem? (i := 31) rfl), ?_⟩
  refine List.forall_mem_cons.2 ⟨.inl <| .intro _ (List.mem_of_getElem? (i := 29) rfl), ?_⟩
  refine List.forall_mem_cons.2 ⟨.inl <| .intro _ (List.mem_of_getElem? (i := 35) rfl), ?_⟩
  refine List.forall_mem_cons.2 ⟨.inl <| .intro _ (List.mem_of_getElem? (i := 21) rfl), ?_⟩
  refine List.forall_mem_cons.2 ⟨.inl <| .intro _ (List.mem_of_getElem? (i := 27) rfl), ?_⟩
  refine List.forall_mem_cons.2 ⟨.inl <| .intro _ (List.mem_of_getElem? (i := 36) rfl), ?_⟩
  refine List.forall_mem_cons.2 ⟨.inl <| .intro _ (List.mem_of_getElem? (i := 38) rfl), ?_⟩
  refine List.forall_mem_cons.2 ⟨.inl <| .intro _ (List.mem_of_getElem? (i := 25) rfl), ?_⟩
  refine List.forall_mem_cons.2 ⟨.inl <| .intro _ (List.mem_of_getElem? (i := 22) rfl), ?_⟩
  refine List.forall_mem_cons.2 ⟨.inl <| .intro _ (List.mem_of_getElem? (i := 30) rfl), ?_⟩
  refine List.forall_mem_cons.2 ⟨.inl <| .intro _ (List.mem_of_getElem? (i := 34) rfl), ?_⟩
  refine List.forall_mem_cons.2 ⟨.inl <| .intro _ (List.mem_of_getElem? (i := 39) rfl), ?_⟩
  refine List.forall_mem_cons.2 ⟨.inl <| .intro _ (List.mem_of_getElem? (i := 11) rfl), ?_⟩
  refine List.forall_mem_cons.2 ⟨.inl <| .intro _ (List.mem_of_getElem? (i := 12) rfl), ?_⟩
  refine List.forall_mem_cons.2 ⟨.inl <| .intro _ (List.mem_of_getElem? (i := 13) rfl), ?_⟩
  refine List.forall_mem_cons.2 ⟨.inl <| .intro _ (List.mem_of_getElem? (i := 14) rfl), ?_⟩
  refine List.forall_mem_cons.2 ⟨.inl <| .intro _ (List.mem_of_getElem? (i := 16) rfl), ?_⟩
  refine List.forall_mem_cons.2 ⟨.inl <| .intro _ (List.mem_of_getElem? (i := 17) rfl), ?_⟩
  refine List.forall_mem_cons.2 ⟨.inl <| .intro _ (List.mem_of_getElem? (i := 18) rfl), ?_⟩
  refine List.forall_mem_cons.2 ⟨.inl <| .intro _ (List.mem_of_getElem? (i := 19) rfl), ?_⟩
  refine List.forall_mem_cons.2 ⟨.inl <| .intro _ (List.mem_of_getElem? (i := 20) rfl), ?_⟩
  refine List.forall_mem_cons.2 ⟨.inl <| .intro _ (List.mem_of_getElem? (i := 50) rfl), ?_⟩
  refine List.forall_mem_cons.2 ⟨.inl <| .intro _ (List.mem_of_getElem? (i := 53) rfl), ?_⟩
  refine List.forall_mem_cons.2 ⟨.inl <| .intro _ (List.mem_of_getElem? (i := 54) rfl), ?_⟩
  refine List.forall_mem_cons.2 ⟨.inl <| .intro _ (List.mem_of_getElem? (i := 55) rfl), ?_⟩
  refine List.forall_mem_cons.2 ⟨.inl <| .intro _ (List.mem_of_getElem? (i := 136) rfl), ?_⟩
  refine List.forall_mem_cons.2 ⟨.inl <| .intro _ (List.mem_of_getElem? (i := 141) rfl), ?_⟩
  refine List.forall_mem_cons.2 ⟨.inl <| .intro _ (List.mem_of_getElem? (i := 138) rfl), ?_⟩
  refine List.forall_mem_cons.2 ⟨.inl <| .intro _ (List.mem_of_getElem? (i := 135) rfl), ?_⟩
  refine List.forall_mem_cons.2 ⟨.inl <| .intro _ (List.mem_of_getElem? (i := 137) rfl), ?_⟩
  refine List.forall_mem_cons.2 ⟨.inl <| .intro _ (List.mem_of_getElem? (i := 140) rfl), ?_⟩
  refine List.forall_mem_cons.2 ⟨.inl <| .intro _ (List.mem_of_getElem? (i := 142) rfl), ?_⟩
  refine List.forall_mem_cons.2 ⟨.inl <| .intro _ (List.mem_of_getElem? (i := 153) rfl), ?_⟩
  refine List.forall_mem_cons.2 ⟨.inl <| .intro _ (List.mem_of_getElem? (i := 148) rfl), ?_⟩
  refine List.forall_mem_cons.2 ⟨.inl <| .intro _ (List.mem_of_getElem? (i := 149) rfl), ?_⟩
  refine List.forall_mem_cons.2 ⟨.inl <| .intro _ (List.mem_of_getElem? (i := 151) rfl), ?_⟩
  refine List.forall_mem_cons.2 ⟨.inl <| .intro _ (List.mem_of_getElem? (i := 145) rfl), ?_⟩
  refine List.forall_mem_cons.2 ⟨.inl <| .intro _ (List.mem_of_getElem? (i := 143) rfl), ?_⟩
  refine List.forall_mem_cons.2 ⟨.inl <| .intro _ (List.mem_of_getElem? (i := 144) rfl), ?_⟩
  refine List.forall_mem_cons.2 ⟨.inl <| .intro _ (List.mem_of_getElem? (i := 155) rfl), ?_⟩
  refine List.forall_mem_cons.2 ⟨.inl <| .intro _ (List.mem_of_getElem? (i := 146) rfl), ?_⟩
  refine List.forall_mem_cons.2 ⟨.inl <| .intro _ (List.mem_of_getElem? (i := 147) rfl), ?_⟩
  refine List.forall_mem_cons.2 ⟨.inl <| .intro _ (List.mem_of_getElem? (i := 150) rfl), ?_⟩
  refine List.forall_mem_cons.2 ⟨.inl <| .intro _ (List.mem_of_getElem? (i := 152) rfl), ?_⟩
  refine List.forall_mem_cons.2 ⟨.inl <| .intro _ (List.mem_of_getElem? (i := 154) rfl), ?_⟩
  refine List.forall_mem_cons.2 ⟨.inl <| .intro _ (List.mem_of_getElem? (i := 156) rfl), ?_⟩
  refine List.forall_mem_cons.2 ⟨.inl <| .intro _ (List.mem_of_getElem? (i := 157) rfl), ?_⟩
  refine List.forall_mem_cons.2 ⟨.inl <| .intro _ (List.mem_of_getElem? (i := 161) rfl), ?_⟩
  refine List.forall_mem_cons.2 ⟨.inl <| .intro _ (List.mem_of_getElem? (i := 165) rfl), ?_⟩
  refine List.forall_mem_cons.2 ⟨.inl <| .intro _ (List.mem_of_getElem? (i := 163) rfl), ?_⟩
  refine List.forall_mem_cons.2 ⟨.inl <| .intro _ (List.mem_of_getElem? (i := 164) rfl), ?_⟩
  exact List.forall_mem_nil _

end Dmr.Py
