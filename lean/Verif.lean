import Verif.Basic.Bits
import Verif.Basic.Bytes
import Verif.Basic.Checksum
import Verif.Basic.Crc32
import Verif.Basic.Exc
import Verif.Basic.Pigeonhole
import Verif.Basic.Sort
import Verif.Basic.Str
import Verif.Basic.Utf16
import Verif.Model.AttributeFields
import Verif.Model.Attributes
import Verif.Model.BootSector
import Verif.Model.ExFAT.BootRegion
import Verif.Model.ExFAT.Directory
import Verif.Model.ExFAT.Fields
import Verif.Model.ExFAT.Names
import Verif.Model.ExFAT.Parser
import Verif.Model.ExFAT.Table
import Verif.Model.FAT.BootSector
import Verif.Model.FAT.Directory
import Verif.Model.FAT.Marks
import Verif.Model.FAT.Names
import Verif.Model.FAT.Parser
import Verif.Model.FAT.Table
import Verif.Model.LogFile.Client
import Verif.Model.LogFile.Fields
import Verif.Model.LogFile.Lsns
import Verif.Model.LogFile.Object
import Verif.Model.LogFile.Pages
import Verif.Model.LogFile.RecordText
import Verif.Model.LogFile.Replay
import Verif.Model.MFT.Carver
import Verif.Model.MFT.Device
import Verif.Model.MFT.FileRecord
import Verif.Model.MFT.FileRecordSegment
import Verif.Model.MFT.FileSystem
import Verif.Model.MFT.FragmentedFile
import Verif.Model.MFT.MappingPairs
import Verif.Model.MFT.Object
import Verif.Model.MFT.Parser
import Verif.Model.MFT.Shared
import Verif.Model.MFT.SlackSpace
import Verif.Model.MoveTable
import Verif.Model.MoveTableFields
import Verif.Model.PartitionTable
import Verif.Model.PrintInformation
import Verif.Model.Scripts.AllMft
import Verif.Model.Scripts.Fat
import Verif.Model.Scripts.Index
import Verif.Model.Scripts.Log
import Verif.Model.Scripts.Main
import Verif.Model.Scripts.Mem
import Verif.Model.Scripts.Mount
import Verif.Model.Scripts.Move
import Verif.Model.Scripts.Tables
import Verif.Model.Scripts.Text
import Verif.Model.ShadowCopy.Blocks
import Verif.Model.ShadowCopy.Fields
import Verif.Model.ShadowCopy.Fill
import Verif.Model.ShadowCopy.Object
import Verif.Model.ShadowCopy.Parser
import Verif.Model.ShadowCopy.Shared
import Verif.Model.USN
import Verif.Model.USNFields
import Verif.Model.UpdateSequence
import Verif.Model.WSL
import Verif.Proof.Attributes
import Verif.Proof.Calendar
import Verif.Proof.Carver
import Verif.Proof.Chain
import Verif.Proof.Chunks
import Verif.Proof.Csv
import Verif.Proof.Decimal
import Verif.Proof.Device
import Verif.Proof.FatText
import Verif.Proof.Fields
import Verif.Proof.FileRecord
import Verif.Proof.FileRecordSegment
import Verif.Proof.FileRecordSegmentInit
import Verif.Proof.FileSystem
import Verif.Proof.FileSystemSpec
import Verif.Proof.FragmentedFile
import Verif.Proof.Hexdump
import Verif.Proof.LogBlocks
import Verif.Proof.LogFile
import Verif.Proof.LogFileLsns
import Verif.Proof.LogReport
import Verif.Proof.MappingPairs
import Verif.Proof.MftTable
import Verif.Proof.MoveReport
import Verif.Proof.Parser
import Verif.Proof.ParserPaths
import Verif.Proof.PartitionTable
import Verif.Proof.Prefix
import Verif.Proof.Programs
import Verif.Proof.SampleLog
import Verif.Proof.SampleMFT
import Verif.Proof.SampleShadow
import Verif.Proof.SampleVolume
import Verif.Proof.ShadowCopy
import Verif.Proof.Tables
import Verif.Proof.USN
import Verif.Proof.UpdateSequence
import Verif.Proof.Utf16
import Verif.Props.C01_C04
import Verif.Props.C05_C10
import Verif.Props.C100
import Verif.Props.C101
import Verif.Props.C102
import Verif.Props.C103
import Verif.Props.C105
import Verif.Props.C107
import Verif.Props.C108
import Verif.Props.C109
import Verif.Props.C109_Concrete
import Verif.Props.C11
import Verif.Props.C110
import Verif.Props.C111
import Verif.Props.C112
import Verif.Props.C113
import Verif.Props.C114
import Verif.Props.C115
import Verif.Props.C116
import Verif.Props.C117
import Verif.Props.C118
import Verif.Props.C119
import Verif.Props.C119_Concrete
import Verif.Props.C120
import Verif.Props.C121
import Verif.Props.C122
import Verif.Props.C123
import Verif.Props.C124
import Verif.Props.C125
import Verif.Props.C126
import Verif.Props.C127
import Verif.Props.C127_Read
import Verif.Props.C128
import Verif.Props.C129
import Verif.Props.C129_Concrete
import Verif.Props.C12_C15
import Verif.Props.C131
import Verif.Props.C132
import Verif.Props.C132_Concrete
import Verif.Props.C133
import Verif.Props.C133_Concrete
import Verif.Props.C134
import Verif.Props.C134_Concrete
import Verif.Props.C134_Shadow
import Verif.Props.C16_C20
import Verif.Props.C16_C20_Concrete
import Verif.Props.C21
import Verif.Props.C22_C24
import Verif.Props.C25
import Verif.Props.C26_C27
import Verif.Props.C28_C31
import Verif.Props.C32
import Verif.Props.C33
import Verif.Props.C34
import Verif.Props.C34_Concrete
import Verif.Props.C35_C36
import Verif.Props.C35_Concrete
import Verif.Props.C37
import Verif.Props.C38
import Verif.Props.C39_C40
import Verif.Props.C41
import Verif.Props.C42_C43
import Verif.Props.C42_Concrete
import Verif.Props.C42_Stop
import Verif.Props.C44
import Verif.Props.C45
import Verif.Props.C46_C49
import Verif.Props.C50
import Verif.Props.C51_C52
import Verif.Props.C53_C54
import Verif.Props.C55_C56
import Verif.Props.C57
import Verif.Props.C58_C59
import Verif.Props.C60
import Verif.Props.C61
import Verif.Props.C63_C64
import Verif.Props.C65_C66
import Verif.Props.C67
import Verif.Props.C68
import Verif.Props.C69_C70
import Verif.Props.C71_Bitmap
import Verif.Props.C71_C74
import Verif.Props.C72
import Verif.Props.C75
import Verif.Props.C76
import Verif.Props.C77_C78
import Verif.Props.C80
import Verif.Props.C80_Newest
import Verif.Props.C80_Orphans
import Verif.Props.C80_OrphansAll
import Verif.Props.C81
import Verif.Props.C81_Orphans
import Verif.Props.C81_OrphansAll
import Verif.Props.C82
import Verif.Props.C83_C84
import Verif.Props.C85
import Verif.Props.C86_C87
import Verif.Props.C88_C90
import Verif.Props.C90_Concrete
import Verif.Props.C91_C93
import Verif.Props.C94_C96
import Verif.Props.C97
import Verif.Props.C97_Concrete
import Verif.Props.C98
import Verif.Props.C98_Concrete
import Verif.Props.C99
import Verif.Props.C99_Concrete
import Verif.Props.ExFATSample
import Verif.Spec.AllMft
import Verif.Spec.AttributeFields
import Verif.Spec.Attributes
import Verif.Spec.BootFields
import Verif.Spec.Carver
import Verif.Spec.Chain
import Verif.Spec.ExFATChain
import Verif.Spec.ExFATDirectory
import Verif.Spec.ExFATRegion
import Verif.Spec.ExFATWalk
import Verif.Spec.FAT
import Verif.Spec.FATDirectory
import Verif.Spec.FATNames
import Verif.Spec.FATWalk
import Verif.Spec.FatTable
import Verif.Spec.FileRecord
import Verif.Spec.FileRecordSegment
import Verif.Spec.FileSystem
import Verif.Spec.FragmentedFile
import Verif.Spec.Headers
import Verif.Spec.IndexTable
import Verif.Spec.JournalFields
import Verif.Spec.LogFields
import Verif.Spec.LogFile
import Verif.Spec.LogReport
import Verif.Spec.MappingPairs
import Verif.Spec.MemTable
import Verif.Spec.MergedAttributes
import Verif.Spec.MftTable
import Verif.Spec.Mount
import Verif.Spec.MoveReport
import Verif.Spec.Parser
import Verif.Spec.PartitionTable
import Verif.Spec.Printed
import Verif.Spec.Programs
import Verif.Spec.RecordText
import Verif.Spec.ShadowBlocks
import Verif.Spec.ShadowCopy
import Verif.Spec.SlackSpace
import Verif.Spec.Text
import Verif.Spec.USN
import Verif.Spec.UpdateSequence
import Verif.Spec.UsnTable
import Verif.Spec.Utf16
