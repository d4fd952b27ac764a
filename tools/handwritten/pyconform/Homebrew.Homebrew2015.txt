import Verif.Props.PropertiesDecoded
/-- okdmr/kaitai/homebrew/homebrew2015.py:110-124: it evaluates the property `fifth_letter` of its `_root`, which remembers the letter. -/
theorem Homebrew2015_TypeRepeaterConfigurationOrClosing_builds_at (n : Nat) (H : List Obj) (S : List Stream) (k : Nat) (hk : k < S.length) (s : Stream)
    (p : Nat) (a2 a3 a4 : Val) (hp : H[p]? = some ⟨"Homebrew.Homebrew2015", [("_io", .io k), ("_parent", a2), ("_root", a3), ("command_prefix", a4)]⟩) (parent : Val) :
    ((calls library (n + 5)).construct "Homebrew.Homebrew2015.TypeRepeaterConfigurationOrClosing" [.io k, parent, .obj p]).run ⟨H, S.set k s⟩ =
      after Dmr.Homebrew.Homebrew2015.computeFifthLetter s (fun e s' => .raise e ⟨H, S.set k s'⟩) fun letter s' => 
        after (Dmr.Homebrew.Homebrew2015.TypeRepeaterConfigurationOrClosing.readData letter) s'
          (fun e s' => .raise e ⟨H.set p ⟨"Homebrew.Homebrew2015", [("_io", .io k), ("_parent", a2), ("_root", a3), ("command_prefix", a4), ("_m_fifth_letter", .pv (.str letter))]⟩, S.set k s'⟩)
          fun x s' => .ok (.obj H.length) ⟨H.set p ⟨"Homebrew.Homebrew2015", [("_io", .io k), ("_parent", a2), ("_root", a3), ("command_prefix", a4), ("_m_fifth_letter", .pv (.str letter))]⟩ ++
            placeObj (.io k) parent (.obj p) H.length (Dmr.Homebrew.Homebrew2015.TypeRepeaterConfigurationOrClosing.toPy ⟨x⟩), S.set k s'⟩ := by
  rw [construct_eq library _ "Homebrew.Homebrew2015.TypeRepeaterConfigurationOrClosing" _ _ Homebrew2015_TypeRepeaterConfigurationOrClosing_class rfl rfl]
  py_run [onStream_set _ _ _ _ hk, hk, fetch_old hp, store_old hp, fetch_changed hp, after_seek, after_pos, Source.Homebrew.Homebrew2015, Dmr.Homebrew.Homebrew2015.computeFifthLetter,
    Dmr.Homebrew.Homebrew2015.TypeRepeaterConfigurationOrClosing.readData, Dmr.Homebrew.Homebrew2015.TypeRepeaterConfigurationOrClosing.toPy,
    Dmr.Homebrew.Homebrew2015.TypeRepeaterConfigurationOrClosing.DataUnion.toPy]

@[py] theorem Homebrew2015_TypeRepeaterConfigurationOrClosing_builds (n : Nat) (H T : List Obj) (S : List Stream) (k : Nat) (hk : k < S.length) (s : Stream)
    (a2 a3 a4 parent : Val) :
    ((calls library (n + 5)).construct "Homebrew.Homebrew2015.TypeRepeaterConfigurationOrClosing" [.io k, parent, .obj H.length]).run
        ⟨H ++ ⟨"Homebrew.Homebrew2015", [("_io", .io k), ("_parent", a2), ("_root", a3), ("command_prefix", a4)]⟩ :: T, S.set k s⟩ =
      after Dmr.Homebrew.Homebrew2015.computeFifthLetter s (fun e s' => .raise e ⟨H ++ ⟨"Homebrew.Homebrew2015", [("_io", .io k), ("_parent", a2), ("_root", a3), ("command_prefix", a4)]⟩ :: T, S.set k s'⟩) fun letter s' => 
        after (Dmr.Homebrew.Homebrew2015.TypeRepeaterConfigurationOrClosing.readData letter) s'
          (fun e s' => .raise e ⟨H ++ ⟨"Homebrew.Homebrew2015", [("_io", .io k), ("_parent", a2), ("_root", a3), ("command_prefix", a4), ("_m_fifth_letter", .pv (.str letter))]⟩ :: T, S.set k s'⟩)
          fun x s' => .ok (.obj (H.length + (T.length + 1))) ⟨H ++ ⟨"Homebrew.Homebrew2015", [("_io", .io k), ("_parent", a2), ("_root", a3), ("command_prefix", a4), ("_m_fifth_letter", .pv (.str letter))]⟩ ::
            (T ++ placeObj (.io k) parent (.obj H.length) (H.length + (T.length + 1)) (Dmr.Homebrew.Homebrew2015.TypeRepeaterConfigurationOrClosing.toPy ⟨x⟩)), S.set k s'⟩ := by
  rw [Homebrew2015_TypeRepeaterConfigurationOrClosing_builds_at n (H ++ ⟨"Homebrew.Homebrew2015", [("_io", .io k), ("_parent", a2), ("_root", a3), ("command_prefix", a4)]⟩ :: T) S k hk s H.length a2 a3 a4 (by simp) parent]
  simp only [List.length_append, List.length_cons, List.set_append_right, Nat.le_refl, Nat.sub_self, List.set_cons_zero, List.append_assoc, List.cons_append]

theorem Homebrew2015_letter {t t3 s : Stream} {on : PyStr} {r : Nat} (h : Dmr.Homebrew.Homebrew2015.computeFifthLetter t = (.ok on, t3)) (ht : t.pos = 4)
    (h4 : readU4be t3 = (.ok r, s)) : on = [Char.ofNat (r / 2 ^ 24)] := by
  obtain ⟨h1, h2⟩ := Dmr.Properties.letter_of (show Dmr.Homebrew.Homebrew2015.computeFifthLetter t = _ from h)
  have h3 := Dmr.Properties.id_letter h1 (by rw [h2]; exact ht) (by rw [h2]) h4
  rw [h1] at h3
  cases h3
  rfl

/-- okdmr/kaitai/homebrew/homebrew2015.py:15-291 against `Dmr.Homebrew.Homebrew2015`, for a packet at the beginning of its stream (`fifth_letter` looks at the fifth octet of the stream). -/
theorem Homebrew2015_builds (n : Nat) (H : List Obj) (S : List Stream) (k : Nat) (hk : k < S.length) (s : Stream) (hs : s.pos = 0) :
    ((calls library (n + 7)).construct "Homebrew.Homebrew2015" [.io k, .pv .none, .pv .none]).run ⟨H, S.set k s⟩ =
      after Dmr.Homebrew.Homebrew2015.read s (fun e s' => .raise e ⟨H, S.set k s'⟩)
        (built Dmr.Homebrew.Homebrew2015.toPy k (.pv .none) (.pv .none) H S) := by
  rw [construct_eq library _ "Homebrew.Homebrew2015" _ _ Homebrew2015_class rfl rfl]
  py_run [onStream_set _ _ _ _ hk, hk, Dmr.Homebrew.Homebrew2015.read, Dmr.Homebrew.Homebrew2015.readCommandData, Dmr.Homebrew.Homebrew2015.toPy, Dmr.Homebrew.Homebrew2015.CommandDataUnion.toPy,
    Dmr.Homebrew.Homebrew2015.TypeRepeaterConfigurationOrClosing.read, Dmr.Homebrew.Homebrew2015.TypeRepeaterConfigurationOrClosing.readData, Dmr.Homebrew.Homebrew2015.CommandDataUnion.fifthLetter, Option.bind_some, Option.bind_none]
  refine after_congr_ok fun b s1 h1 => chosen_congr fun cmd hcmd => ?_
  have hpos : s1.pos = 4 := by
    obtain ⟨_, s0, h0, h1⟩ := Dmr.Hytera.of_bind_ok h1
    cases h0
    unfold readBytesNotAligned at h1
    dsimp only at h1
    split at h1
    · rename_i hl
      cases h1
      simp only [List.length_take, List.length_drop] at hl ⊢
      omega
    · cases h1
  repeat' (first | with_reducible rfl | refine if_congr Iff.rfl ?_ ?_)
  refine after_congr_ok fun letter s2 h2 => ?_
  by_cases hL : letter = "L".toList
  · rw [if_pos hL, if_pos hL]
    rw [hL]
    py_same
    rfl
  · rw [if_neg hL, if_neg hL]
    refine after_congr_ok fun x s3 h3 => ?_
    have : letter = [Char.ofNat (x.repeater_id / 2 ^ 24)] := by
      unfold Dmr.Homebrew.Homebrew2015.TypeRepeaterConfiguration.read at h3
      obtain ⟨r, _, h4, h3⟩ := Dmr.Hytera.of_bind_ok h3
      have hr : x.repeater_id = r := by
        repeat (obtain ⟨_, _, _, h3⟩ := Dmr.Hytera.of_bind_ok h3)
        cases h3
        rfl
      rw [hr]
      exact Homebrew2015_letter h2 hpos h4
    rw [this]
