import Verif.Lemmas.Dump
/-!
# The printout of a message (C175)
-/

namespace FcRetrieval.Dump
open FcRetrieval.Ring (Fault)

/-- **C175.** A printout can be made of every message.  It has one line for every 32 bytes, each with its offset, its bytes in hexadecimal, and its bytes as characters. -/
theorem C175_lines (b : Bytes) : ∃ t, dumpMessage b = .ok t ∧ (linesOf t).length = (b.length + 31) / 32 ∧
    ∀ (i : Nat) line, (linesOf t)[i]? = some line → IsLine b i line := by
  obtain ⟨ls, h1, h2, h3⟩ := dump_ok b (b.length + 1) 0 ⟨32, 0, 0⟩ rfl rfl (by omega) (by omega)
  have hne : ∀ l ∈ ls, '\n' ∉ l := by
    intro l hl
    obtain ⟨j, hj⟩ := List.mem_iff_getElem?.1 hl
    exact isLine_ne (h3 j l hj)
  refine ⟨_, h1, ?_, ?_⟩
  · rw [linesOf_all hne, h2]
    omega
  · intro i line hi
    rw [linesOf_all hne] at hi
    have := h3 i line hi
    rwa [Nat.zero_add] at this

/-- **C175**, no byte is lost: the message can be read off its printout. -/
theorem C175_recover (b : Bytes) : ∃ t, dumpMessage b = .ok t ∧ readBack t = b := by
  obtain ⟨t, h1, h2, h3⟩ := C175_lines b
  exact ⟨t, h1, lines_bytes b h2 h3⟩

/-- **C175**: what is read off the printout of a message, given to `FCRMsgFromBytes`, is treated as the message sent would be. -/
theorem C175_message (m : Message.Msg) : ∃ t, dumpMsg m = .ok t ∧ Message.fromBytes (readBack t) = Message.fromBytes (Message.toBytes m) := by
  obtain ⟨t, h1, h2⟩ := C175_recover (Message.toBytes m)
  exact ⟨t, h1, by rw [h2]⟩

/-- The printout of 40 bytes has two lines. -/
example : (dumpMessage (("The quick brown fox, and so on: a|b:c".toList.map (fun c => UInt8.ofNat c.toNat)) ++ [10, 0, 255])).map
    (fun t => (readBack t, (linesOf t).length)) = .ok (("The quick brown fox, and so on: a|b:c".toList.map (fun c => UInt8.ofNat c.toNat)) ++ [10, 0, 255], 2) := by
  decide +kernel

end FcRetrieval.Dump
