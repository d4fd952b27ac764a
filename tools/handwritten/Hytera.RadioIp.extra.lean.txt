/-- okdmr/kaitai/hytera/radio_ip.py:34-42 property `radio_id` (hand-written; the value is cached in
`_m_radio_id`, see `Verif/Model/Lazy.lean`). -/
def RadioIp.radio_id (o : RadioIp) : Nat :=
  (((o.radio_id_1 <<< 16) + (o.radio_id_2 <<< 8)) + o.radio_id_3)

/-- okdmr/kaitai/hytera/radio_ip.py:44-56 property `radio_ip` (hand-written; `str(int)` is
`Nat.toDigits 10`). -/
def RadioIp.radio_ip (o : RadioIp) : PyStr :=
  Nat.toDigits 10 o.subnet ++ ".".toList ++ Nat.toDigits 10 o.radio_id_1 ++ ".".toList
    ++ Nat.toDigits 10 o.radio_id_2 ++ ".".toList ++ Nat.toDigits 10 o.radio_id_3
