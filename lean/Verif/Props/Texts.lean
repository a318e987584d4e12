import Verif.Props.MapServer
import Verif.Props.Unprintable
/-
C45, C50, C63: the handlers write addresses of received messages into log messages and exceptions with `unicode()`
(map_server_node.py:139, 167; etr_node.py:615, 669), which raises TypeError for an AFI list with something in it.  Received
messages never get there with such an address, so that the handlers of MapServer.lean and Etr.lean leave the texts out.
-/
namespace PyLisp.Props

theorem writable_texts {r : Record} {b : Bits} (h : encRecord r = .ok b) :
    ¬ Unprintable r.eid ∧ ∀ l ∈ r.locators, ¬ Unprintable l.address := by
  obtain ⟨r', h1, _⟩ := encRecord_ok h
  obtain ⟨_, _, _, ⟨n, hn⟩, hl, _⟩ := Record.sanitize_ok.mp h1
  refine ⟨by rw [hn]; rintro ⟨⟩, fun l hm => ?_⟩
  obtain ⟨_, i, hi⟩ := hl l hm
  rw [hi]; rintro ⟨⟩

/-- C45: handling a record of a received Map-Register never fails for the text of an address: the EID and all locators
of all its records have texts. -/
theorem register_texts_defined (d : Bytes) (m : MapRegister) (hm : MapRegister.fromBytes d = .ok m) (r : Record)
    (hr : r ∈ m.records) : ¬ Unprintable r.eid ∧ ∀ l ∈ r.locators, ¬ Unprintable l.address := by
  obtain ⟨_, b, hb⟩ := received_record hm hr
  exact writable_texts hb

/-- C50: nor does handling a record of a received Map-Notify. -/
theorem notify_texts_defined (d : Bytes) (m : MapNotify) (hm : MapNotify.fromBytes d = .ok m) (r : Record)
    (hr : r ∈ m.records) : ¬ Unprintable r.eid ∧ ∀ l ∈ r.locators, ¬ Unprintable l.address := by
  obtain ⟨d', hd'⟩ := map_notify_writable_with d m hm [0] (by simp) (by simp)
  obtain ⟨_, _, _, _, _, _, h⟩ := (map_notify_writable_iff _).mp ⟨d', hd'⟩
  obtain ⟨b, hb⟩ := h r hr
  exact writable_texts hb

/-- C63: nor does an Info-Reply that nobody waits for. -/
theorem info_text_defined (d : Bytes) (m : Info) (hm : Info.fromBytes d = .ok m) : ¬ Unprintable m.eidPrefix := by
  obtain ⟨rest, hr⟩ := runOn_iff.mp hm
  obtain ⟨_, _, _, h, _, _⟩ := Info.sanitize_ok.mp (readInfo_fix hr)
  cases he : m.eidPrefix with
  | net n => rintro ⟨⟩
  | _ => rw [he] at h; simp [Addr.isNet] at h

-- an address without a text, which a locator of a message made by hand can have
example : Unprintable (.afiList [.null]) := .list (by simp)
example : Unprintable (.inst 3 (.afiList [.null]) 32) := .inst (.list (by simp))
-- it would pass the check of a locator's address; what keeps it out is the sort key
example : checkLocatorAddress (.afiList [.null]) = .ok () := by decide
example : (({ address := .afiList [.null] } : Locator).sortKey) = .error .type := rfl

end PyLisp.Props
