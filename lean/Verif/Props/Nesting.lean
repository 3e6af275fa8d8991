/-
C85: calls inside the library nest at most four deep, and at most seven working buffers exist at a time.
-/
import Verif.Nesting
import Verif.Props.Memory

namespace Verif.Mem

/-- The bounds fit together: each function keeps to its own if those it calls do. -/
theorem peak_code (f : Fn) :
    (peak nestingOf (code f) []).1 ≤ (nestingOf f).1 ∧ (peak nestingOf (code f) []).2 ≤ (nestingOf f).2 := by
  have : ∀ f, f ∈ Fn.all → (peak nestingOf (code f) []).1 ≤ (nestingOf f).1 ∧
      (peak nestingOf (code f) []).2 ≤ (nestingOf f).2 := by decide +kernel
  exact this f f.mem_all

/-- **C85**, upper bounds: at every moment of every execution of a function of the library. -/
theorem C85_nesting (f : Fn) (d n : Nat) (h : Sees code (code f) [] d n) :
    d ≤ (nestingOf f).1 ∧ n ≤ (nestingOf f).2 := by
  have h1 := peak_sound check_code peak_code h (check_code f)
  have h2 := peak_code f
  exact ⟨Nat.le_trans h1.1 h2.1, Nat.le_trans h1.2 h2.2⟩

/-- **C85**, in numbers: nothing nests deeper than four calls below the API, and there are never more than seven
working buffers. -/
theorem C85_bounded (f : Fn) (d n : Nat) (h : Sees code (code f) [] d n) : d ≤ 4 ∧ n ≤ 7 := by
  have h1 := C85_nesting f d n h
  have h2 : (nestingOf f).1 ≤ 4 ∧ (nestingOf f).2 ≤ 7 := by cases f <;> decide
  exact ⟨Nat.le_trans h1.1 h2.1, Nat.le_trans h1.2 h2.2⟩

/-- The moments of the execution that makes the choices `w` (see `exec`). -/
def moments (code : Fn → Stm Buf Fn) : Nat → Stm Buf Fn → List Bool → List Buf → List (Nat × Nat)
  | 0, _, _, _ => []
  | _ + 1, .alloc b, true :: _, L => if b ∈ L then [(0, L.length)] else [(0, L.length), (0, L.length + 1)]
  | n + 1, .ifNull b s, w, L => if b ∈ L then [(0, L.length)] else moments code n s w L
  | n + 1, .seq s t, w, L =>
    moments code n s w L ++
      match exec code n s w L with
      | some (.next M, w) => moments code n t w M
      | _ => []
  | n + 1, .alt s _, true :: w, L => moments code n s w L
  | n + 1, .alt _ t, false :: w, L => moments code n t w L
  | n + 1, .loop s, true :: w, L => moments code n s w L
  | n + 1, .scope s, w, L => moments code n s w L
  | n + 1, .call f, w, L => (moments code n (code f) w []).map fun p => (p.1 + 1, L.length + p.2)
  | _ + 1, _, _, L => [(0, L.length)]

theorem moments_sees {code : Fn → Stm Buf Fn} : ∀ (k : Nat) (s : Stm Buf Fn) (w : List Bool) (L : List Buf)
    (d n : Nat), (d, n) ∈ moments code k s w L → Sees code s L d n := by
  intro k
  induction k with
  | zero => intro s w L d n h; cases h
  | succ k ih =>
    intro s w L d n h
    have here : (d, n) ∈ [(0, L.length)] → Sees code s L d n := by
      intro h
      simp only [List.mem_singleton, Prod.mk.injEq] at h
      obtain ⟨rfl, rfl⟩ := h
      exact .here
    cases s with
    | skip => exact here h
    | free b => exact here h
    | use b => exact here h
    | brk => exact here h
    | ret => exact here h
    | alloc b =>
      rcases w with _ | ⟨_ | _, w⟩
      · exact here h
      · exact here h
      · simp only [moments] at h
        split at h
        · exact here h
        · rename_i hb
          rcases List.mem_cons.1 h with h | h
          · exact here (by rw [h]; exact List.mem_cons_self)
          · simp only [List.mem_singleton, Prod.mk.injEq] at h
            obtain ⟨rfl, rfl⟩ := h
            exact .after (.allocated hb)
    | ifNull b s =>
      simp only [moments] at h
      split at h
      · exact here h
      · exact .isNull ‹_› (ih _ _ _ _ _ h)
    | seq s t =>
      simp only [moments] at h
      rcases List.mem_append.1 h with h | h
      · exact .first (ih _ _ _ _ _ h)
      · split at h
        · rename_i h1; exact .second (exec_run _ _ _ _ _ _ h1) (ih _ _ _ _ _ h)
        · cases h
    | alt s t =>
      rcases w with _ | ⟨_ | _, w⟩
      · exact here h
      · exact .right (ih _ _ _ _ _ h)
      · exact .left (ih _ _ _ _ _ h)
    | loop s =>
      rcases w with _ | ⟨_ | _, w⟩
      · exact here h
      · exact here h
      · exact .round (ih _ _ _ _ _ h)
    | scope s => exact .scope (ih _ _ _ _ _ h)
    | call f =>
      simp only [moments, List.mem_map, Prod.mk.injEq] at h
      obtain ⟨⟨d', n'⟩, m, rfl, rfl⟩ := h
      exact .call (ih _ _ _ _ _ m)

/-- Choices that lead to the greatest depth, and to the greatest number of buffers. -/
def choices : Fn → List Nat × List Nat
  | .comp_cid_len => ([0, 0, 1], [])
  | .comp_id_cred_len => ([0, 0, 1], [])
  | .comp_th_len => ([0], [])
  | .comp_cred_len => ([0, 0, 1], [])
  | .comp_ead_len => ([0, 1], [])
  | .kid_compact_encoding => ([0, 1, 1, 1, 0], [])
  | .sign_cose_sign_1 => ([], [1, 1, 1, 1, 1])
  | .verify_cose_sign_1 => ([], [1, 1, 1, 1, 1])
  | .edhoc_comp_mac_context_length => ([0, 0, 0, 0, 0, 0, 1], [])
  | .edhoc_comp_mac_context => ([0, 0, 0, 0, 0, 0, 1, 0, 1, 1, 1, 0, 1, 1, 1, 0], [])
  | .edhoc_comp_mac => ([0, 0, 0, 0], [0, 0, 0, 0, 1, 1, 1, 1])
  | .edhoc_comp_sign_or_mac => ([0, 1, 1], [0, 1, 1, 1, 1, 1, 1, 1])
  | .edhoc_verify_sign_or_mac => ([0, 1, 1], [0, 1, 1, 1, 1, 1, 1, 1])
  | .compute_prk_out => ([0, 0], [0, 0, 1, 1, 1, 1])
  | .compute_new_prk_out => ([0, 0], [0, 0, 1, 1, 1, 1])
  | .compute_prk_exporter => ([0, 0], [0, 0, 1, 1, 1, 1])
  | .edhoc_export_prk_exporter => ([0, 0, 0, 1, 0, 0], [0, 0, 0, 0, 1, 0, 0, 1, 1, 1, 1])
  | .edhoc_export_key_update => ([0, 0, 1, 0, 0], [0, 0, 1, 0, 0, 1, 1, 1, 1])
  | .edhoc_export_oscore_session => ([0, 0, 0, 0, 0, 0, 1, 0, 0], [0, 0, 0, 0, 0, 0, 0, 1, 0, 0, 1, 1, 1, 1])
  | .edhoc_message_1_compose => ([], [0, 0, 0, 0, 1])
  | .comp_th_2 => ([0, 0], [0, 0, 1, 1, 1])
  | .comp_prk_3e2m => ([0, 0, 0, 1, 1, 0, 0], [0, 0, 0, 1, 1, 1, 0, 1])
  | .comp_plaintext_2_len => ([0, 1], [])
  | .prepare_plaintext_2 => ([1, 0, 0], [])
  | .comp_keystream => ([0, 0], [0, 0, 1, 1, 1, 1])
  | .prepare_message_2 => ([], [0, 1])
  | .comp_th_3 => ([0, 0], [0, 0, 1, 1])
  | .comp_salt_3e2m => ([0, 0], [0, 0, 1, 1, 1, 1])
  | .edhoc_message_2_compose =>
    ([0, 0, 1, 0, 1, 0, 1, 0, 1, 0, 1, 0, 0, 1, 0, 1, 0, 1, 0, 0, 0, 0, 0, 0, 1, 0, 1, 1, 1, 0, 1, 1, 1, 0],
     [0, 0, 1, 0, 1, 0, 1, 0, 1, 0, 1, 0, 0, 1, 0, 1, 0, 1, 1, 0, 1, 0, 1, 1, 0, 1, 0, 1, 0, 1, 1, 1, 1, 1,
      1, 1])
  | .edhoc_message_2_process =>
    ([0, 0, 1, 0, 1, 1, 0, 1, 0, 1, 0, 1, 0, 1, 1, 0, 1, 0, 1, 0, 0, 1, 0, 1, 0, 1, 0, 0, 0, 0, 0, 0, 1, 0,
      1, 1, 1, 0, 1, 1, 1, 0],
     [0, 0, 1, 0, 1, 1, 0, 1, 0, 1, 0, 1, 0, 1, 1, 0, 1, 0, 1, 0, 0, 1, 0, 1, 0, 1, 1, 0, 1, 0, 1, 0, 0, 0,
      0, 1, 1, 1, 1])
  | .comp_prk_4e3m => ([0, 0, 0, 1, 1, 0, 0], [0, 0, 0, 1, 1, 1, 0, 1])
  | .comp_plaintext_3_len => ([0, 1], [])
  | .prepare_plaintext_3 => ([0, 0], [])
  | .comp_aad_3_len => ([0], [])
  | .comp_key_iv_aad_3 => ([0, 0], [0, 0, 1, 1, 1, 1])
  | .comp_th_4 => ([0, 0], [0, 0, 1, 1])
  | .comp_salt_4e3m => ([0, 0], [0, 0, 1, 1, 1, 1])
  | .edhoc_message_3_compose =>
    ([0, 0, 0, 0, 1, 1, 1, 0, 1, 1, 0, 1, 0, 1, 0, 1, 0, 0, 0, 0, 0, 0, 1, 0, 1, 1, 1, 0, 1, 1, 1, 0],
     [0, 0, 0, 0, 1, 1, 1, 0, 1, 1, 0, 1, 0, 1, 0, 1, 1, 0, 1, 0, 1, 1, 0, 1, 0, 1, 0, 1, 1, 1, 1, 1, 1, 1])
  | .edhoc_message_3_process =>
    ([0, 0, 1, 0, 1, 1, 1, 0, 1, 1, 0, 1, 1, 0, 1, 0, 0, 0, 1, 0, 1, 0, 1, 0, 0, 0, 0, 0, 0, 1, 0, 1, 1, 1,
      0, 1, 1, 1, 0],
     [0, 0, 1, 0, 1, 1, 1, 0, 1, 1, 0, 1])
  | .compute_plaintext_4_len => ([0, 1], [])
  | .compute_key_iv_aad_4 => ([0, 0], [0, 0, 1, 1, 1, 1])
  | .edhoc_message_4_compose => ([0, 0, 0, 0, 1], [0, 0, 0, 1, 0, 1, 1, 0, 1, 1, 1, 1, 1, 1, 1, 0, 1])
  | .edhoc_message_4_process => ([0, 0, 1, 0, 1, 1], [0, 0, 1, 0, 1, 1, 1, 1, 1, 1, 1, 0, 1])
  | _ => ([], [])

/-- **C85**, the bounds are attained. -/
theorem C85_exact (f : Fn) :
    (∃ n, Sees code (code f) [] (nestingOf f).1 n) ∧ ∃ d, Sees code (code f) [] d (nestingOf f).2 := by
  have : ∀ f, f ∈ Fn.all →
      ((moments code 1000 (code f) ((choices f).1.map (· == 1)) []).any fun p => p.1 == (nestingOf f).1) = true ∧
      ((moments code 1000 (code f) ((choices f).2.map (· == 1)) []).any fun p => p.2 == (nestingOf f).2) = true := by
    decide +kernel
  obtain ⟨h1, h2⟩ := this f f.mem_all
  simp only [List.any_eq_true, beq_iff_eq] at h1 h2
  obtain ⟨⟨d, n⟩, m, e⟩ := h1
  obtain ⟨⟨d', n'⟩, m', e'⟩ := h2
  exact ⟨⟨n, e ▸ moments_sees _ _ _ _ _ _ m⟩, d', e' ▸ moments_sees _ _ _ _ _ _ m'⟩

theorem Inside.sees {s : Stm Buf Fn} {L : List Buf} {g : Fn} (h : Inside code s L g) {d n : Nat}
    (hg : Sees code (code g) [] d n) : ∃ n, Sees code s L (d + 1) n := by
  induction h with
  | call => exact ⟨_, .call hg⟩
  | isNull b _ ih => obtain ⟨n, h⟩ := ih hg; exact ⟨n, .isNull b h⟩
  | first _ ih => obtain ⟨n, h⟩ := ih hg; exact ⟨n, .first h⟩
  | second r _ ih => obtain ⟨n, h⟩ := ih hg; exact ⟨n, .second r h⟩
  | left _ ih => obtain ⟨n, h⟩ := ih hg; exact ⟨n, .left h⟩
  | right _ ih => obtain ⟨n, h⟩ := ih hg; exact ⟨n, .right h⟩
  | round _ ih => obtain ⟨n, h⟩ := ih hg; exact ⟨n, .round h⟩
  | nextRound r _ ih => obtain ⟨n, h⟩ := ih hg; exact ⟨n, .nextRound r h⟩
  | scope _ ih => obtain ⟨n, h⟩ := ih hg; exact ⟨n, .scope h⟩

theorem reaches_lt {f g : Fn} (h : Reaches f g) : (nestingOf g).1 < (nestingOf f).1 := by
  induction h with
  | @call f g h =>
    obtain ⟨⟨_, hg⟩, _⟩ := C85_exact g
    obtain ⟨_, hf⟩ := h.sees hg
    exact (C85_nesting _ _ _ hf).1
  | @through f g k h _ ih =>
    obtain ⟨⟨_, hg⟩, _⟩ := C85_exact g
    obtain ⟨_, hf⟩ := h.sees hg
    exact Nat.lt_trans ih (C85_nesting _ _ _ hf).1

/-- **C85**, no recursion: no function of the library calls itself, directly or through others. -/
theorem C85_no_recursion (f : Fn) : ¬ Reaches f f := fun h => Nat.lt_irrefl _ (reaches_lt h)

/-! ### The hypotheses are met -/

/-- a moment four calls deep in composing message 3, with four buffers allocated -/
example : Sees code (code .edhoc_message_3_compose) [] 4 4 :=
  moments_sees 1000 _ (bits (choices .edhoc_message_3_compose).1) _ _ _ (by decide +kernel)

/-- seven buffers at a time -/
example : Sees code (code .edhoc_message_3_compose) [] 2 7 :=
  moments_sees 1000 _ (bits (choices .edhoc_message_3_compose).2) _ _ _ (by decide +kernel)

/-- a call of a call -/
example : Reaches .edhoc_export_key_update .edhoc_cbor_int_mem_req :=
  .through (g := .compute_prk_out) (.second (.right .skip) (.second (.right .skip) (.first (.left (.first .call)))))
    (.call (.second (.right .skip) (.second (.right .skip) (.first .call))))

end Verif.Mem
