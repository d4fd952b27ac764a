/-- okdmr/kaitai/hytera/radio_id.py:26-32 property `radio_id` (hand-written). -/
def RadioId.radio_id (o : RadioId) : Nat := o.radio_id_raw >>> 8
