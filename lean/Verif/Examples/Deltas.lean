import Verif.Examples.Tree
import Verif.Spec.Validation

/-!
# A concrete sequence of versions

A repository with three versions and the deltas between them.
-/

namespace KSync.Demo

open KSync.Inst

def versions : Uuid → Nat → Objects
  | 5, 1 => fun u => if u = (rs "a").toStr then some [1] else none
  | 5, 2 => fun u => if u = (rs "a").toStr then some [1] else if u = (rs "b").toStr then some [9] else none
  | 5, 3 => fun u => if u = (rs "a").toStr then some [5] else none
  | _, _ => fun _ => none

def els2 : List DeltaElement := [.publish (rs "b") [9]]
def els3 : List DeltaElement := [.update (rs "a") [1] [5], .withdraw (rs "b") [9]]
def delta2 : Bytes := toBytes els2
def delta3 : Bytes := toBytes els3
def snap3 : Bytes := toBytes [(rs "a", ([5] : Bytes))]

/-- Version 3 is current; the deltas are listed in an unusual order. -/
def notifV : Notif := ⟨5, 3, uri "vs", snap3, [⟨3, uri "v3", delta3⟩, ⟨2, uri "v2", delta2⟩]⟩
/-- Cached data of version 1. -/
def dataV : RepoData := ⟨none, 0, false, 5, 1, [((rs "a").toStr, [1])]⟩

def envV : Env := { treeEnv with
  clock := fun _ => 5000
  http := fun _ r =>
    if r.uri = uri "v" then .ok .absent (some (toBytes notifV))
    else if r.uri = uri "vs" then .ok .absent (some snap3)
    else if r.uri = uri "v2" then .ok .absent (some delta2)
    else if r.uri = uri "v3" then .ok .absent (some delta3)
    else .other 404 }

/-- The same, but the second delta is not there. -/
def envW : Env := { envV with http := fun k r => if r.uri = uri "v3" then .other 404 else envV.http k r }

def fetcherV : Fetcher := ⟨uri "v", none, true⟩
def visitedV : Visited := ⟨[], [(uri "v", dataV)]⟩

theorem change2 : ChangeOf els2 (versions 5 1) (versions 5 2) := by
  refine ⟨by decide +kernel, ?_, ?_, ?_, ?_⟩
  · intro u x h
    cases List.mem_singleton.1 h
    decide +kernel
  · intro u h x hm
    cases List.mem_singleton.1 hm
  · intro u h hm
    cases List.mem_singleton.1 hm
  · intro u hu
    have hu : u ≠ (rs "b").toStr := fun h => hu (by rw [h]; decide +kernel)
    show (if u = (rs "a").toStr then some [1] else if u = (rs "b").toStr then some [9] else none) =
      if u = (rs "a").toStr then some [1] else none
    rw [if_neg hu]

theorem change3 : ChangeOf els3 (versions 5 2) (versions 5 3) := by
  refine ⟨by decide +kernel, ?_, ?_, ?_, ?_⟩
  · intro u x h
    rcases List.mem_cons.1 h with h | h
    · cases h
    · cases List.mem_singleton.1 h
  · intro u h x hm
    rcases List.mem_cons.1 hm with hm | hm
    · cases hm
      exact ⟨by decide +kernel, [1], by decide +kernel, by decide +kernel⟩
    · cases List.mem_singleton.1 hm
  · intro u h hm
    rcases List.mem_cons.1 hm with hm | hm
    · cases hm
    · cases List.mem_singleton.1 hm
      exact ⟨by decide +kernel, [9], by decide +kernel, by decide +kernel⟩
  · intro u hu
    have ha : u ≠ (rs "a").toStr := fun h => hu (by rw [h]; decide +kernel)
    have hb : u ≠ (rs "b").toStr := fun h => hu (by rw [h]; decide +kernel)
    show (if u = (rs "a").toStr then some [5] else none) =
      if u = (rs "a").toStr then some [1] else if u = (rs "b").toStr then some [9] else none
    rw [if_neg ha, if_neg ha, if_neg hb]

theorem truthfulV : Truthful versions notifV := by
  constructor
  · decide +kernel
  · intro b els hb hp
    have hb : b = snap3 := hb
    subst hb
    have : Ext.parseSnapshot snap3 = some [(rs "a", ([5] : Bytes))] := by decide +kernel
    rw [this] at hp
    cases hp
    intro u
    show (if u = (rs "a").toStr then some [5] else none) = _
    by_cases hu : u = (rs "a").toStr
    · rw [if_pos hu, hu]; decide +kernel
    · rw [if_neg hu]
      simp [List.find?, Ne.symm hu]
  · intro d hd b els hb hp k hk
    rcases List.mem_cons.1 hd with rfl | hd
    · have hb : b = delta3 := hb
      subst hb
      have : Ext.parseDelta delta3 = some els3 := by decide +kernel
      rw [this] at hp
      cases hp
      cases hk
      exact change3
    · cases List.mem_singleton.1 hd
      have hb : b = delta2 := hb
      subst hb
      have : Ext.parseDelta delta2 = some els2 := by decide +kernel
      rw [this] at hp
      cases hp
      cases hk
      exact change2

theorem genuineV : dataV.Genuine versions := by
  intro u
  show mapGet [((rs "a").toStr, ([1] : Bytes))] u = if u = (rs "a").toStr then some [1] else none
  by_cases hu : u = (rs "a").toStr
  · rw [if_pos hu, hu]; decide +kernel
  · rw [if_neg hu]
    simp [mapGet, hu]

end KSync.Demo
