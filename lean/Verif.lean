import Verif.Py.Basic
import Verif.Lemmas.Blockfile
import Verif.Lemmas.Bruker
import Verif.Lemmas.Bytes
import Verif.Lemmas.DMSignal
import Verif.Lemmas.Delmic
import Verif.Lemmas.DelmicAxes
import Verif.Lemmas.DelmicFinish
import Verif.Lemmas.DelmicRead
import Verif.Lemmas.DelmicScan
import Verif.Lemmas.Dens
import Verif.Lemmas.DigitalMicrograph
import Verif.Lemmas.Digitalsurf
import Verif.Lemmas.DigitalsurfComment
import Verif.Lemmas.DigitalsurfFile
import Verif.Lemmas.DigitalsurfKinds
import Verif.Lemmas.DigitalsurfNorm
import Verif.Lemmas.DigitalsurfObj
import Verif.Lemmas.DigitalsurfPart
import Verif.Lemmas.Distributed
import Verif.Lemmas.Edax
import Verif.Lemmas.EmdNcem
import Verif.Lemmas.EmdNcemMeta
import Verif.Lemmas.EmdNcemRead
import Verif.Lemmas.EmdNcemSignal
import Verif.Lemmas.EmdNcemStack
import Verif.Lemmas.EmdNcemWrite
import Verif.Lemmas.EmdVelox
import Verif.Lemmas.EmdVeloxFile
import Verif.Lemmas.EmdVeloxImage
import Verif.Lemmas.EmdVeloxName
import Verif.Lemmas.EmdVeloxStream
import Verif.Lemmas.Empad
import Verif.Lemmas.Fei
import Verif.Lemmas.Genfromtxt
import Verif.Lemmas.Hamamatsu
import Verif.Lemmas.HamamatsuImage
import Verif.Lemmas.HamamatsuMeta
import Verif.Lemmas.HierDict
import Verif.Lemmas.HspyFile
import Verif.Lemmas.Hypermap
import Verif.Lemmas.HypermapMap
import Verif.Lemmas.HypermapPixel
import Verif.Lemmas.Impulse
import Verif.Lemmas.Jeol
import Verif.Lemmas.JeolEds
import Verif.Lemmas.JeolPts
import Verif.Lemmas.JeolTree
import Verif.Lemmas.MrcFile
import Verif.Lemmas.Nexus
import Verif.Lemmas.NexusFile
import Verif.Lemmas.NexusMeta
import Verif.Lemmas.NexusWrite
import Verif.Lemmas.Pantarhei
import Verif.Lemmas.Phenom
import Verif.Lemmas.PhenomAnalysis
import Verif.Lemmas.PhenomCommon
import Verif.Lemmas.PhenomEds
import Verif.Lemmas.PhenomFile
import Verif.Lemmas.PhenomReads
import Verif.Lemmas.PhenomSignals
import Verif.Lemmas.PhenomTable
import Verif.Lemmas.PhenomXml
import Verif.Lemmas.Protochips
import Verif.Lemmas.Quadstar
import Verif.Lemmas.Renishaw
import Verif.Lemmas.RenishawData
import Verif.Lemmas.RenishawMeta
import Verif.Lemmas.Sfs
import Verif.Lemmas.SfsTree
import Verif.Lemmas.Tia
import Verif.Lemmas.TiaAxes
import Verif.Lemmas.Tiff
import Verif.Lemmas.Tofwerk
import Verif.Lemmas.TofwerkData
import Verif.Lemmas.Topspin
import Verif.Lemmas.TvipsScan
import Verif.Lemmas.Xml
import Verif.Lemmas.XmlBox
import Verif.Lemmas.XmlDict
import Verif.Model.Arina
import Verif.Model.Blockfile
import Verif.Model.BlockfileScale
import Verif.Model.Bruker
import Verif.Model.DMImage
import Verif.Model.DMSignal
import Verif.Model.DateTime
import Verif.Model.Delmic
import Verif.Model.Dens
import Verif.Model.Deprecated
import Verif.Model.Dictionary
import Verif.Model.DigitalMicrograph
import Verif.Model.Digitalsurf
import Verif.Model.DigitalsurfComment
import Verif.Model.DigitalsurfMeta
import Verif.Model.DigitalsurfPost
import Verif.Model.Distributed
import Verif.Model.Edax
import Verif.Model.EmdNcem
import Verif.Model.EmdVelox
import Verif.Model.Empad
import Verif.Model.ExifNames
import Verif.Model.Fei
import Verif.Model.Genfromtxt
import Verif.Model.Hamamatsu
import Verif.Model.HeaderArray
import Verif.Model.HierDict
import Verif.Model.HspyFile
import Verif.Model.HspyOld
import Verif.Model.Hypermap
import Verif.Model.ImageFile
import Verif.Model.ImageWrite
import Verif.Model.Impulse
import Verif.Model.IsoDate
import Verif.Model.Jeol
import Verif.Model.JeolAsw
import Verif.Model.JeolEds
import Verif.Model.JeolPts
import Verif.Model.JeolTree
import Verif.Model.JobinYvon
import Verif.Model.MerlinFile
import Verif.Model.Mrc
import Verif.Model.MrcFei
import Verif.Model.MrcFile
import Verif.Model.Mrcz
import Verif.Model.Msa
import Verif.Model.Netcdf
import Verif.Model.Nexus
import Verif.Model.Npy
import Verif.Model.NumpyFile
import Verif.Model.Pantarhei
import Verif.Model.PantarheiMeta
import Verif.Model.Path
import Verif.Model.Phenom
import Verif.Model.PhenomMapping
import Verif.Model.Protochips
import Verif.Model.Quadstar
import Verif.Model.QuantumDetector
import Verif.Model.Ragged
import Verif.Model.Readfile
import Verif.Model.Renishaw
import Verif.Model.RenishawData
import Verif.Model.RenishawMeta
import Verif.Model.RenishawNested
import Verif.Model.Rgb
import Verif.Model.Ripple
import Verif.Model.RippleFile
import Verif.Model.Semper
import Verif.Model.Sfs
import Verif.Model.SignalChunks
import Verif.Model.StoredModels
import Verif.Model.Tia
import Verif.Model.TiaMeta
import Verif.Model.Tiff
import Verif.Model.TiffMapping
import Verif.Model.Tofwerk
import Verif.Model.TofwerkFile
import Verif.Model.TofwerkMeta
import Verif.Model.Topspin
import Verif.Model.Trivista
import Verif.Model.TrivistaMeta
import Verif.Model.Tvips
import Verif.Model.TvipsMeta
import Verif.Model.TvipsNames
import Verif.Model.TvipsScan
import Verif.Model.Unpickle
import Verif.Model.Usid
import Verif.Model.Xml
import Verif.Props.Arina
import Verif.Props.Blockfile
import Verif.Props.BlockfileScale
import Verif.Props.Bruker
import Verif.Props.BrukerFails
import Verif.Props.DMImage
import Verif.Props.DMSignal
import Verif.Props.DMSignalFails
import Verif.Props.DateTime
import Verif.Props.Delmic
import Verif.Props.Dens
import Verif.Props.Deprecated
import Verif.Props.Dictionary
import Verif.Props.DigitalMicrograph
import Verif.Props.Digitalsurf
import Verif.Props.DigitalsurfComment
import Verif.Props.DigitalsurfMeta
import Verif.Props.DigitalsurfNotes
import Verif.Props.DigitalsurfPost
import Verif.Props.Distributed
import Verif.Props.Edax
import Verif.Props.EmdNcem
import Verif.Props.EmdNcemFails
import Verif.Props.EmdNcemWrite
import Verif.Props.EmdVelox
import Verif.Props.EmdVeloxFails
import Verif.Props.Empad
import Verif.Props.ExifNames
import Verif.Props.Fei
import Verif.Props.Hamamatsu
import Verif.Props.HeaderArray
import Verif.Props.HierDict
import Verif.Props.HspyFails
import Verif.Props.HspyFile
import Verif.Props.HspyOld
import Verif.Props.HspyUpdate
import Verif.Props.Hypermap
import Verif.Props.ImageFile
import Verif.Props.ImageWrite
import Verif.Props.Impulse
import Verif.Props.IsoDate
import Verif.Props.Jeol
import Verif.Props.JeolAsw
import Verif.Props.JeolEds
import Verif.Props.JeolPts
import Verif.Props.JeolPtsFails
import Verif.Props.JeolTree
import Verif.Props.JobinYvon
import Verif.Props.JobinYvonMeta
import Verif.Props.MerlinFile
import Verif.Props.Mrc
import Verif.Props.MrcFei
import Verif.Props.MrcFile
import Verif.Props.MrcFileFails
import Verif.Props.Mrcz
import Verif.Props.Msa
import Verif.Props.Netcdf
import Verif.Props.Nexus
import Verif.Props.NexusAxes
import Verif.Props.NexusDefault
import Verif.Props.NexusFails
import Verif.Props.NexusMeta
import Verif.Props.NexusWrite
import Verif.Props.Npy
import Verif.Props.NumpyFile
import Verif.Props.Pantarhei
import Verif.Props.PantarheiMeta
import Verif.Props.Path
import Verif.Props.Phenom
import Verif.Props.PhenomMapping
import Verif.Props.Protochips
import Verif.Props.Quadstar
import Verif.Props.QuantumDetector
import Verif.Props.Ragged
import Verif.Props.Readfile
import Verif.Props.Renishaw
import Verif.Props.RenishawData
import Verif.Props.RenishawFit
import Verif.Props.RenishawMeta
import Verif.Props.RenishawNested
import Verif.Props.Rgb
import Verif.Props.Ripple
import Verif.Props.RippleFile
import Verif.Props.Semper
import Verif.Props.Sfs
import Verif.Props.SignalChunks
import Verif.Props.StoredModels
import Verif.Props.Tia
import Verif.Props.TiaMeta
import Verif.Props.Tiff
import Verif.Props.TiffFails
import Verif.Props.TiffMapping
import Verif.Props.TiffMeta
import Verif.Props.TiffStreak
import Verif.Props.TiffWrite
import Verif.Props.Tofwerk
import Verif.Props.TofwerkData
import Verif.Props.TofwerkFile
import Verif.Props.TofwerkFileFails
import Verif.Props.TofwerkMeta
import Verif.Props.TofwerkSum
import Verif.Props.Topspin
import Verif.Props.Trivista
import Verif.Props.TrivistaInfo
import Verif.Props.TrivistaMeta
import Verif.Props.TrivistaSetup
import Verif.Props.Tvips
import Verif.Props.TvipsMeta
import Verif.Props.TvipsNames
import Verif.Props.TvipsScan
import Verif.Props.Unpickle
import Verif.Props.Usid
import Verif.Props.UsidFails
import Verif.Props.UsidMeta
import Verif.Props.UsidWrite
import Verif.Props.Xml
import Verif.Py.Assoc
import Verif.Py.Bytes
import Verif.Py.Dec
import Verif.Py.Float32
import Verif.Py.IntLit
import Verif.Py.Lines
import Verif.Py.Ravel
import Verif.Py.Record
import Verif.Py.Text
import Verif.Spec.Bruker
import Verif.Spec.Bytes
import Verif.Spec.DMSignal
import Verif.Spec.Delmic
import Verif.Spec.Dens
import Verif.Spec.Dictionary
import Verif.Spec.DigitalMicrograph
import Verif.Spec.Digitalsurf
import Verif.Spec.DigitalsurfComment
import Verif.Spec.DigitalsurfMeta
import Verif.Spec.Distributed
import Verif.Spec.Edax
import Verif.Spec.EmdNcem
import Verif.Spec.EmdVelox
import Verif.Spec.Empad
import Verif.Spec.Fei
import Verif.Spec.Hamamatsu
import Verif.Spec.HierDict
import Verif.Spec.HspyFile
import Verif.Spec.HspyOld
import Verif.Spec.Hypermap
import Verif.Spec.Impulse
import Verif.Spec.Jeol
import Verif.Spec.JeolAsw
import Verif.Spec.JeolEds
import Verif.Spec.JeolPts
import Verif.Spec.JeolTree
import Verif.Spec.MrcFile
import Verif.Spec.Nexus
import Verif.Spec.Pantarhei
import Verif.Spec.Phenom
import Verif.Spec.Protochips
import Verif.Spec.Quadstar
import Verif.Spec.Renishaw
import Verif.Spec.RenishawMeta
import Verif.Spec.Sfs
import Verif.Spec.Tables
import Verif.Spec.Tia
import Verif.Spec.Tiff
import Verif.Spec.Tofwerk
import Verif.Spec.TofwerkFile
import Verif.Spec.Topspin
import Verif.Spec.TvipsScan
import Verif.Spec.Unpickle
import Verif.Spec.Usid
import Verif.Spec.Xml
