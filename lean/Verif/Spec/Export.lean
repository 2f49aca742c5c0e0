import Verif.Model.Export

/-!
# What an export of bags should give
-/

namespace HandEye.Spec

/-- A source of poses that a configuration names: a pair of tf frames, or a camera that sees the target. -/
inductive PoseSource where
  | tf (bag_path bag_name source target : Text)
  | camera (bag_path bag_name topic camera target : Text)

/-- The sources of a bag. -/
def sourcesOf (b : BagEntry) : List PoseSource :=
  (match b.tf_frames with
    | none => []
    | some f => List.zipWith (fun s t => PoseSource.tf b.bag_path b.name s t) f.source f.target) ++
  (match b.cameras with
    | none => []
    | some c => List.zipWith (fun x i => PoseSource.camera b.bag_path b.name x (b.intrinsics_path ++ i)
        (b.target_config_path ++ b.target)) c.cam_topics c.cam_intrinsics)

/-- The sources of a configuration. -/
def configured (bags : List BagEntry) : List PoseSource := bags.flatMap sourcesOf

/-- Lists of frames and of cameras have matching lengths. -/
def EqualLengths (b : BagEntry) : Prop :=
  (∀ f, b.tf_frames = some f → f.source.length = f.target.length) ∧
    ∀ c, b.cameras = some c → c.cam_topics.length = c.cam_intrinsics.length

/-- `flags` ask for the poses of this camera. -/
structure AsksFor {τ : Type} (w : ExportWorld τ) (bag topic camera target : Text) (flags : ExtractorFlags) : Prop where
  bag : flags.bag = bag
  topic : flags.topic = topic
  camera : flags.eval_camera_yaml = camera
  target : w.read_target target = some flags.april_target
  metres : flags.output_position_in_mm = false
  header : flags.write_csv_header = false

/-- `t` is the table of the source. -/
def IsTable {τ : Type} (w : ExportWorld τ) : PoseSource → τ → Prop
  | .tf path name source target, t => w.tf_to_csv (path ++ name) source target = some t
  | .camera path name topic camera target, t =>
    ∃ flags sequenced, AsksFor w (path ++ name) topic camera target flags ∧
      w.target_extractor flags = some (sequenced, t)

/-- The tools can get the table of the source. -/
def Available {τ : Type} (w : ExportWorld τ) : PoseSource → Prop
  | .tf path name source target => (w.tf_to_csv (path ++ name) source target).isSome
  | .camera path name topic camera target =>
    (w.read_target target).isSome ∧
      ∀ flags, AsksFor w (path ++ name) topic camera target flags → (w.target_extractor flags).isSome

/-- A name up to its first dot. -/
def stem (name : Text) : Text := name.takeWhile (· ≠ '.')

/-- `/` becomes `_`. -/
def flat (topic : Text) : Text := topic.map fun c => if c = '/' then '_' else c

/-- Names that cannot be confused when they are joined by underscores. -/
structure PlainNames (bags : List BagEntry) : Prop where
  bags_differ : ∀ b ∈ bags, ∀ c ∈ bags, stem b.name = stem c.name → b.bag_path = c.bag_path ∧ b.name = c.name
  stem_plain : ∀ b ∈ bags, 'W' ∉ stem b.name ∧ ¬ ['s', 'e', 'q', 'u', 'e', 'n', 'c', 'e', 'd'] <+: stem b.name
  frames_plain : ∀ b ∈ bags, ∀ f, b.tf_frames = some f → ∀ x ∈ f.source ++ f.target, '_' ∉ x ∧ 'W' ∉ x
  topics_plain : ∀ b ∈ bags, ∀ c, b.cameras = some c → ∀ x ∈ c.cam_topics, x.head? = some '/' ∧ 'W' ∉ x
  topics_differ : ∀ p n x i g, PoseSource.camera p n x i g ∈ configured bags → ∀ x' i' g',
    PoseSource.camera p n x' i' g' ∈ configured bags → flat x = flat x' → x = x' ∧ i = i' ∧ g = g'

end HandEye.Spec
