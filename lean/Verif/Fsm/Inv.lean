import Verif.Fsm.Lemmas
import Verif.Fsm.AckLemmas

/-!
# What an event says about its message (helper lemmas)
-/

namespace Osip

/-! ## What an event says about its message -/

theorem evOk_msg {ev : Ev} (h : EvOk ev) (ht : ev.type.isMsg = true) : ∃ r, ev.sip = some r := by
  cases hs : ev.sip with
  | none => simp [EvOk, hs, ht] at h
  | some r => exact ⟨r, rfl⟩

theorem evOk_snd_invite {ev : Ev} (h : EvOk ev) (ht : ev.type = .SND_REQINVITE) :
    ∃ r, ev.sip = some r ∧ r.m.isRequest = true ∧ r.m.sip_method = some "INVITE".toList ∧
      r.m.req_uri.isSome = true := by
  obtain ⟨r, hs⟩ := evOk_msg h (by rw [ht]; rfl)
  refine ⟨r, hs, ?_⟩
  simp only [EvOk, hs, ht, evtAllowed] at h
  obtain ⟨ha, h⟩ := h
  have hq : r.m.isRequest = true ∧ r.m.sip_method = some "INVITE".toList := by
    rcases h with h | h
    · unfold evt_type_incoming at h; (repeat' split at h) <;> simp_all
    · unfold evt_type_outgoing at h; (repeat' split at h) <;> simp_all
  simp [hq] at ha
  exact ⟨hq.1, hq.2, ha⟩

theorem evOk_snd_request {ev : Ev} (h : EvOk ev) (ht : ev.type = .SND_REQUEST) :
    ∃ r, ev.sip = some r ∧ r.m.isRequest = true ∧ r.m.sip_method.isSome = true ∧
      r.m.sip_method ≠ some "INVITE".toList ∧
      r.m.sip_method ≠ some "ACK".toList ∧ r.m.req_uri.isSome = true := by
  obtain ⟨r, hs⟩ := evOk_msg h (by rw [ht]; rfl)
  refine ⟨r, hs, ?_⟩
  simp only [EvOk, hs, ht, evtAllowed] at h
  obtain ⟨ha, h⟩ := h
  have hq : r.m.isRequest = true ∧ r.m.sip_method ≠ some "INVITE".toList ∧
      r.m.sip_method ≠ some "ACK".toList := by
    rcases h with h | h
    · unfold evt_type_incoming at h; (repeat' split at h) <;> simp_all
    · unfold evt_type_outgoing at h; (repeat' split at h) <;> simp_all
  simp [hq] at ha
  exact ⟨hq.1, ha.1, hq.2.1, hq.2.2, ha.2⟩

theorem evOk_rcv_request {ev : Ev} (h : EvOk ev) (ht : ev.type = .RCV_REQUEST) :
    ∃ r, ev.sip = some r ∧ r.m.isRequest = true ∧ r.m.sip_method.isSome = true ∧
      r.m.sip_method ≠ some "INVITE".toList ∧
      r.m.sip_method ≠ some "ACK".toList ∧ r.m.req_uri.isSome = true := by
  obtain ⟨r, hs⟩ := evOk_msg h (by rw [ht]; rfl)
  refine ⟨r, hs, ?_⟩
  simp only [EvOk, hs, ht, evtAllowed] at h
  obtain ⟨ha, h⟩ := h
  have hq : r.m.isRequest = true ∧ r.m.sip_method ≠ some "INVITE".toList ∧
      r.m.sip_method ≠ some "ACK".toList := by
    rcases h with h | h
    · unfold evt_type_incoming at h; (repeat' split at h) <;> simp_all
    · unfold evt_type_outgoing at h; (repeat' split at h) <;> simp_all
  simp [hq] at ha
  exact ⟨hq.1, ha.1, hq.2.1, hq.2.2, ha.2⟩

theorem evOk_rcv_invite {ev : Ev} (h : EvOk ev) (ht : ev.type = .RCV_REQINVITE) :
    ∃ r, ev.sip = some r ∧ r.m.isRequest = true ∧ r.m.sip_method = some "INVITE".toList ∧
      r.m.req_uri.isSome = true := by
  obtain ⟨r, hs⟩ := evOk_msg h (by rw [ht]; rfl)
  refine ⟨r, hs, ?_⟩
  simp only [EvOk, hs, ht, evtAllowed] at h
  obtain ⟨ha, h⟩ := h
  have hq : r.m.isRequest = true ∧ r.m.sip_method = some "INVITE".toList := by
    rcases h with h | h
    · unfold evt_type_incoming at h; (repeat' split at h) <;> simp_all
    · unfold evt_type_outgoing at h; (repeat' split at h) <;> simp_all
  simp [hq] at ha
  exact ⟨hq.1, hq.2, ha⟩

/-- The status code of the message of a response event. -/
theorem evOk_status {ev : Ev} (h : EvOk ev) :
    ((ev.type = .RCV_STATUS_1XX ∨ ev.type = .SND_STATUS_1XX) →
      ∃ r, ev.sip = some r ∧ r.m.isRequest = false ∧ r.m.isStatus 1 = true) ∧
    ((ev.type = .RCV_STATUS_2XX ∨ ev.type = .SND_STATUS_2XX) →
      ∃ r, ev.sip = some r ∧ r.m.isRequest = false ∧ r.m.isStatus 1 = false ∧
        r.m.isStatus 2 = true) ∧
    ((ev.type = .RCV_STATUS_3456XX ∨ ev.type = .SND_STATUS_3456XX) →
      ∃ r, ev.sip = some r ∧ r.m.isRequest = false ∧ r.m.isStatus 1 = false ∧
        r.m.isStatus 2 = false) := by
  refine ⟨?_, ?_, ?_⟩ <;> intro ht
  all_goals
    obtain ⟨r, hs⟩ := evOk_msg h (by rcases ht with ht | ht <;> rw [ht] <;> rfl)
    refine ⟨r, hs, ?_⟩
    simp only [EvOk, hs] at h
    obtain ⟨-, h⟩ := h
    rcases h with h | h
    · rw [h] at ht; clear h; unfold evt_type_incoming at ht; (repeat' split at ht) <;> simp_all
    · rw [h] at ht; clear h; unfold evt_type_outgoing at ht; (repeat' split at ht) <;> simp_all

end Osip
