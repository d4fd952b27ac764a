import re
s=open('/verif/lean/Verif/Spec/Etsi.lean').read()
out='''import Verif.Props.DecodersEtsi
/-
C57: the blocks of a data transmission. `from_bytes` returns `x` exactly if the data begin with a block that means `x`.
-/

set_option autoImplicit false
set_option linter.unusedSimpArgs false
set_option maxRecDepth 4000

namespace Dmr.Wire

open Spec Etsi

'''
def snake(n): return re.sub(r'(?<!^)([A-Z])',r'_\1',n).lower()
for m in re.finditer(r"/-- `(DmrData\.(\w+)|DmrDataHeader\.(DataHeaderShortRaw))`, (\d+) bytes?\. -/\ndef \S+ .*? where\n((?:  .*\n)+)",s):
    cls=m.group(1); short=m.group(2) or m.group(3); n=int(m.group(4))
    bind=[];fl=[];obj=[];wit=[];pos=0
    for l in m.group(5).splitlines():
        f,e=[t.strip() for t in l.split(":=")]
        mm=re.match(r"(resolveEnum _ \()?bitsAt b \(8 \* q(?: \+ (\d+))?\) (\d+)\)?$",e)
        if mm:
            o=int(mm.group(2) or 0); w=int(mm.group(3)); assert o==pos; pos+=w
            bind.append((f,f"BitVec {w}")); fl.append(f); wit.append(f"fieldAt b {o} {w}")
            obj.append(f"{f} := "+(f"resolveEnum _ {f}.toNat" if mm.group(1) else f"{f}.toNat")); continue
        mm=re.match(r"flagAt b \(8 \* q(?: \+ (\d+))?\)$",e)
        if mm:
            o=int(mm.group(1) or 0); assert o==pos; pos+=1
            bind.append((f,"Bool")); fl.append(f); wit.append(f"flagAt b {o}"); obj.append(f"{f} := {f}"); continue
        mm=re.match(r"slice b \(?q(?: \+ (\d+)\))? (\d+)$",e)
        o=int(mm.group(1) or 0); k=int(mm.group(2)); assert 8*o==pos; pos+=8*k
        bind.append((f,f"Octets {k}")); fl.append(f); wit.append(f".at b {o} {k} (by omega)"); obj.append(f"{f} := {f}.val")
    assert pos==8*n
    # group binders
    g=[]
    for f,t in bind:
        if g and g[-1][1]==t: g[-1][0].append(f)
        else: g.append([[f],t])
    b=" ".join(f"({' '.join(a)} : {t})" for a,t in g)
    def wrap(txt,ind,width=125,more="  "):
        words=txt.split(" "); lines=[];cur=ind
        for w in words:
            if len(cur)+len(w)+1>width: lines.append(cur.rstrip()); cur=ind+more+w+" "
            else: cur+=w+" "
        lines.append(cur.rstrip()); return "\n".join(lines)
    name=snake(short).replace("data_header_short_raw","short_raw")
    out+=f"/-- C57: `{cls}`, {n} octets. -/\n"
    out+=f"theorem C57_{'block_' if 'Data.' in cls else 'header_'}{name} (b : Bytes) (x : {cls}) :\n    fromBytes {cls}.read b = .ok x ↔\n"
    out+=wrap(f"∃ {b} (rest : Bytes),","      ")+"\n"
    out+=wrap(f"b = pack f[{', '.join(fl)}] ++ rest ∧","        ")+"\n"
    out+=wrap(f"x = {{ {', '.join(obj)} }} := by","        ",more="      ")+"\n"
    out+=f"""  rw [{cls}.fixed.fromBytes]
  constructor
  · intro h
    by_cases hl : {n} ≤ b.length
    · rw [if_pos hl] at h
      cases h
      refine ⟨{', '.join(wit)}, b.drop {n}, ?_, ?_⟩
      · found hl
      · simp only [{cls}.spec, toNat_fieldAt, Octets.at, Nat.mul_zero, Nat.zero_add]
    · rw [if_neg hl] at h
      cases h
  · rintro ⟨{', '.join(fl)}, rest, rfl, rfl⟩
    packed
    rw [if_pos (by omega)]
"""
    if any('Octets' in t for _,t in bind):
        sl=[]
        p=0
        for f,t in bind:
            w={'Bool':1}.get(t) or (int(t.split()[1])*(8 if t[0]=='O' else 1))
            if t[0]=='O':
                sl.append(f"slice_bits m {p//8} {w//8} (by omega)")
            p+=w
        out+=f"    have hs := And.intro ({sl[0]}) "+("trivial" if len(sl)==1 else f"({sl[1]})")+"\n    simp only [Nat.reduceMul, hf, octets_ofOctets] at hs\n"
    out+=f"    simp only [{cls}.spec, flagAt, Nat.mul_zero, Nat.zero_add, Nat.reduceMul, hf, "+("hs, " if any('Octets' in t for _,t in bind) else "")+"toNat_beq_one]\n\n"
out+="""/-- A confirmed block of rate 1/2. -/
example : fromBytes DmrData.Rate12Confirmed.read [3, 0xFF, 1, 2, 3, 4, 5, 6, 7, 8, 9, 10] = .ok ⟨1, 0x1FF, [1, 2, 3, 4, 5, 6, 7, 8, 9, 10]⟩ :=
  (C57_block_rate12_confirmed _ _).2 ⟨1#7, 0x1FF#9, ⟨[1, 2, 3, 4, 5, 6, 7, 8, 9, 10], rfl⟩, [], by decide, rfl⟩

end Dmr.Wire
"""
open('/verif/lean/Verif/Props/DecodersEtsi2.lean','w').write(out)
