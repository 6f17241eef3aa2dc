import Verif.Props.Work
import Verif.Props.Ring
import Verif.Props.Scan
import Verif.Props.MpQueue
import Verif.Props.DistTargets
import Verif.Props.Minima
import Verif.Props.Fitz
import Verif.Props.FitzTrace
import Verif.Props.Zfind
import Verif.Props.Viewer
import Verif.Props.DesiOpts
import Verif.Props.DeltaChi2
import Verif.Props.Flags
import Verif.Props.Table
import Verif.Props.Coeff
import Verif.Props.Rebin
import Verif.Props.RebinGpu
import Verif.Props.Chi2
import Verif.Props.Files
import Verif.Props.Strings
import Verif.Props.Details
import Verif.Model.IgmData
import Verif.Model.Igm
import Verif.Model.Binned
import Verif.Props.Igm
import Verif.Props.Binned
import Verif.Model.Coadd
import Verif.Model.Desi
import Verif.Lemmas.Desi
import Verif.Props.Desi
import Verif.Props.DesiMore
import Verif.Model.Memory
import Verif.Props.Coadd
import Verif.Props.Memory
import Verif.Model.Archetype
import Verif.Spec.Archetype
import Verif.Lemmas.Archetype
import Verif.Props.Archetype
import Verif.Lemmas.ArchetypeBest
import Verif.Props.ArchetypeBest
import Verif.Props.ArchetypeModel
import Verif.Model.Templates
import Verif.Props.TemplateGrid
import Verif.Props.Templates
import Verif.Model.ArchMerge
import Verif.Props.ArchMerge
import Verif.Model.Meta
import Verif.Props.Meta
import Verif.Model.Boss
import Verif.Props.Boss
import Verif.Props.BossRes
import Verif.Model.Run
import Verif.Lemmas.Run
import Verif.Props.Run
import Verif.Model.Wrap
import Verif.Lemmas.Lpt
import Verif.Props.Wrap
import Verif.Props.WrapFiles
import Verif.Props.WrapRun
import Verif.Props.WrapPlan
import Verif.Model.Gpu
import Verif.Lemmas.Gpu
import Verif.Props.Gpu
import Verif.Props.GpuFit
import Verif.Props.GpuMore
import Verif.Props.GpuRepro
import Verif.Model.Spmd
import Verif.Lemmas.Spmd
import Verif.Lemmas.SpmdPhase
import Verif.Props.Spmd
import Verif.Props.SpmdCases
import Verif.Model.RebinDict
import Verif.Props.RebinDict
import Verif.Model.Catalogue
import Verif.Props.Catalogue
import Verif.Model.Measure
import Verif.Lemmas.UniqueFit
import Verif.Lemmas.Measure
import Verif.Lemmas.MeasureRel
import Verif.Lemmas.Scale
import Verif.Props.Units
import Verif.Lemmas.SameData
import Verif.Props.SameData
import Verif.Props.Basis
import Verif.Props.TemplateSet
import Verif.Model.FullRun
import Verif.Props.FullRun
import Verif.Props.Zbest
import Verif.Model.RrDesi
import Verif.Props.RrDesi
import Verif.Model.Wave
import Verif.Props.Wave
import Verif.Props.WaveDesi
import Verif.Props.WaveEx
import Verif.Model.RrBoss
import Verif.Props.RrBoss
import Verif.Props.RrBossEx
import Verif.Model.MpRun
import Verif.Props.MpRun
import Verif.Props.MpRunEx
import Verif.Model.ModelFile
import Verif.Props.ModelFile
import Verif.Props.ModelFileEx
import Verif.Model.ArchFiles
import Verif.Props.ArchFiles
import Verif.Model.GpuRun
import Verif.Props.GpuRun
import Verif.Props.GpuRunFail
import Verif.Props.GpuBin
import Verif.Props.GpuRunDist
import Verif.Props.SkyLines
import Verif.Model.Convert
import Verif.Props.Convert
import Verif.Props.ConvertLoad
import Verif.Model.ArchFitz
import Verif.Model.TargetHist
import Verif.Model.ArchTable
import Verif.Props.ArchFitz
import Verif.Props.TargetHist
import Verif.Props.ArchTable
import Verif.Props.ArchRows
import Verif.Props.ArchPublished
import Verif.Model.MakeTemplates
import Verif.Props.MakeTemplates
import Verif.Props.MakeTemplatesLoad
import Verif.Model.Rebalance
import Verif.Props.Rebalance
