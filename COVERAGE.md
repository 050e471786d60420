# Which parts of the code are modelled

Generated from the citations in the comments of the model. A line is listed when a definition of the model cites it; in headers most other lines are declarations and comments. Everything not listed is not modelled.

| File in /repo | Lines | Lines cited by the model |
|---|---|---|
| FCollada/FCDocument/FCDAnimated.cpp | 364 | 29-70, 84-98, 101-108, 117-124, 137-145, 149-156, 167-172, 175-186, 217-287, 308-364 |
| FCollada/FCDocument/FCDAnimated.h | 330 | 38, 64-82, 125, 135 |
| FCollada/FCDocument/FCDAnimation.cpp | 135 | 93-103 |
| FCollada/FCDocument/FCDAnimation.h | 158 | 52-58 |
| FCollada/FCDocument/FCDAnimationClip.h | 133 | 42-52, 115 |
| FCollada/FCDocument/FCDAnimationCurve.cpp | 603 | 34-97, 105-113, 141-156, 160-200, 222-307, 311-487, 490-603 |
| FCollada/FCDocument/FCDAnimationCurve.h | 323 | 58-70 |
| FCollada/FCDocument/FCDAnimationCurveTools.cpp | 261 | 21-205, 208-247, 254-260 |
| FCollada/FCDocument/FCDAnimationKey.h | 152 | 26-152 |
| FCollada/FCDocument/FCDAnimationMultiCurve.cpp | 170 | 80-169 |
| FCollada/FCDocument/FCDAsset.cpp | 115 | 22-35, 49-75, 98-109, 112-115 |
| FCollada/FCDocument/FCDAsset.h | 328 | 53-76, 176, 197, 250-254 |
| FCollada/FCDocument/FCDCamera.cpp | 61 | 24-35, 41-47, 52 |
| FCollada/FCDocument/FCDCamera.h | 232 | 63, 68-77 |
| FCollada/FCDocument/FCDController.cpp | 105 | 42-70, 73-86, 89-106 |
| FCollada/FCDocument/FCDController.h | 125 | 45-46 |
| FCollada/FCDocument/FCDControllerInstance.cpp | 151 | 33-92, 101-109, 116-151 |
| FCollada/FCDocument/FCDControllerInstance.h | 142 | 48-56 |
| FCollada/FCDocument/FCDControllerTools.cpp | 112 | 23-60 |
| FCollada/FCDocument/FCDEffect.cpp | 122 | 53-60, 63-73, 76-91, 94-120 |
| FCollada/FCDocument/FCDEffect.h | 149 | 57-58 |
| FCollada/FCDocument/FCDEffectCode.cpp | 49 | 18-25, 41-49 |
| FCollada/FCDocument/FCDEffectCode.h | 114 | 46-55 |
| FCollada/FCDocument/FCDEffectParameter.cpp | 182 | 28-35, 64-67, 70-90, 104-110, 147-168 |
| FCollada/FCDocument/FCDEffectParameter.h | 372 | 47-59, 62-75, 79-82, 340-346, 367-369 |
| FCollada/FCDocument/FCDEffectParameter.hpp | 93 | 18-47, 58-93 |
| FCollada/FCDocument/FCDEffectParameterFactory.cpp | 37 | 16-36 |
| FCollada/FCDocument/FCDEffectParameterSampler.cpp | 93 | 26-37, 51-63, 66-79, 82-93 |
| FCollada/FCDocument/FCDEffectParameterSampler.h | 137 | 41-47, 51-58 |
| FCollada/FCDocument/FCDEffectParameterSurface.cpp | 360 | 26-38, 55-60, 63-81, 84-104, 107-139, 142-179, 182-198, 206-338, 344-360 |
| FCollada/FCDocument/FCDEffectParameterSurface.h | 488 | 30-42, 61-70, 119, 238-480 |
| FCollada/FCDocument/FCDEffectPass.cpp | 147 | 39-45, 49-61, 65-102, 105-147 |
| FCollada/FCDocument/FCDEffectPass.h | 159 | 48-50 |
| FCollada/FCDocument/FCDEffectPassShader.cpp | 106 | 45, 56-72, 75-80, 83-106 |
| FCollada/FCDocument/FCDEffectPassShader.h | 181 | 62-67, 85-172 |
| FCollada/FCDocument/FCDEffectPassState.cpp | 383 | 17-30, 38-363, 372-383 |
| FCollada/FCDocument/FCDEffectPassState.h | 84 | 40-47, 71 |
| FCollada/FCDocument/FCDEffectProfile.cpp | 59 | 43-48, 53-59 |
| FCollada/FCDocument/FCDEffectProfile.h | 114 | 46 |
| FCollada/FCDocument/FCDEffectProfileFX.cpp | 104 | 56-63, 75-104 |
| FCollada/FCDocument/FCDEffectProfileFX.h | 156 | 59-63, 79 |
| FCollada/FCDocument/FCDEffectStandard.cpp | 366 | 59-147, 200-224, 227-233, 236-239, 242-275, 298-365 |
| FCollada/FCDocument/FCDEffectStandard.h | 614 | 60-92, 108-154, 180 |
| FCollada/FCDocument/FCDEffectTechnique.cpp | 106 | 62-89, 99-106 |
| FCollada/FCDocument/FCDEffectTechnique.h | 158 | 52-55 |
| FCollada/FCDocument/FCDEffectTools.cpp | 896 | 29-465, 471-578, 584-691, 697-793, 799-895 |
| FCollada/FCDocument/FCDEmitter.cpp | 44 | 31-43 |
| FCollada/FCDocument/FCDEntity.cpp | 131 | 50-97, 104-108, 111-115 |
| FCollada/FCDocument/FCDEntity.h | 188 | 84-89 |
| FCollada/FCDocument/FCDEntityInstance.cpp | 196 | 31-41, 58-61, 118-154, 191 |
| FCollada/FCDocument/FCDEntityInstance.h | 235 | 49-81 |
| FCollada/FCDocument/FCDEntityReference.cpp | 193 | 21-84, 88-109, 112-193 |
| FCollada/FCDocument/FCDEntityReference.h | 154 | 58-60, 91 |
| FCollada/FCDocument/FCDExternalReferenceManager.cpp | 94 | 31-64, 70-82 |
| FCollada/FCDocument/FCDExtra.cpp | 413 | 25-33, 41-52, 55-91, 113-123, 126-133, 136-162, 173-182, 189-199, 208-280, 283-297, 300-364, 382-395 |
| FCollada/FCDocument/FCDExtra.h | 525 | 42-51, 79, 126-137, 159, 221-236, 248, 257-261, 279, 308-314, 368-374, 439-477, 491-523 |
| FCollada/FCDocument/FCDForceField.cpp | 61 | 46-61 |
| FCollada/FCDocument/FCDGeometry.cpp | 79 | 38-53, 56-79 |
| FCollada/FCDocument/FCDGeometry.h | 126 | 59-60 |
| FCollada/FCDocument/FCDGeometryInstance.cpp | 143 | 59-96, 99-143 |
| FCollada/FCDocument/FCDGeometryInstance.h | 141 | 39-45 |
| FCollada/FCDocument/FCDGeometryMesh.cpp | 265 | 34-43, 59-89, 119-134, 174-204, 207-214, 221-232, 236-265 |
| FCollada/FCDocument/FCDGeometryMesh.h | 298 | 57-71 |
| FCollada/FCDocument/FCDGeometryPolygons.cpp | 337 | 31-44, 58-78, 81-114, 117-133, 136-144, 147-157, 160-181, 189-205, 226-233, 257-265, 275-285, 288-337 |
| FCollada/FCDocument/FCDGeometryPolygons.h | 364 | 58-81, 86-99, 178, 182 |
| FCollada/FCDocument/FCDGeometryPolygonsInput.cpp | 138 | 31-106, 114-138 |
| FCollada/FCDocument/FCDGeometryPolygonsInput.h | 161 | 47, 52-56, 113 |
| FCollada/FCDocument/FCDGeometryPolygonsTools.cpp | 1204 | 36-122, 430-907, 915-1032, 1087-1181 |
| FCollada/FCDocument/FCDGeometryPolygonsTools.h | 165 | 24 |
| FCollada/FCDocument/FCDGeometrySource.h | 188 | 47-51, 112 |
| FCollada/FCDocument/FCDGeometrySpline.cpp | 340 | 34-43, 60-97, 114-181, 189-192, 200-250, 271-340 |
| FCollada/FCDocument/FCDGeometrySpline.h | 336 | 33-43, 63, 67, 71, 89, 104-108, 129, 143-146, 166, 211, 230 |
| FCollada/FCDocument/FCDImage.cpp | 69 | 26-33, 40-49, 52-69 |
| FCollada/FCDocument/FCDLibrary.h | 122 | 50-58, 105-106 |
| FCollada/FCDocument/FCDLibrary.hpp | 89 | 50-72, 75-82, 85-89 |
| FCollada/FCDocument/FCDLight.cpp | 43 | 25-39 |
| FCollada/FCDocument/FCDLight.h | 272 | 65-71, 77-91 |
| FCollada/FCDocument/FCDLightTools.cpp | 416 | 24-414 |
| FCollada/FCDocument/FCDMaterial.cpp | 112 | 42-51, 76-112 |
| FCollada/FCDocument/FCDMaterial.h | 133 | 60-64 |
| FCollada/FCDocument/FCDMaterialInstance.cpp | 198 | 73-79, 86-114, 117-124, 134-198 |
| FCollada/FCDocument/FCDMaterialInstance.h | 240 | 42-58, 68-95, 100-112 |
| FCollada/FCDocument/FCDMorphController.cpp | 216 | 47-81, 84-97, 100-166, 187-202 |
| FCollada/FCDocument/FCDMorphController.h | 194 | 49-50, 120-127 |
| FCollada/FCDocument/FCDObject.h | 104 | 46, 63 |
| FCollada/FCDocument/FCDObjectWithId.cpp | 139 | 22-64, 72-81, 84-110, 115, 121, 128-133 |
| FCollada/FCDocument/FCDObjectWithId.h | 108 | 40-42, 45, 48, 100, 105 |
| FCollada/FCDocument/FCDParameterAnimatable.cpp | 299 | 34-43, 67-141, 156-235, 247-281 |
| FCollada/FCDocument/FCDParameterAnimatable.h | 400 | 114, 147, 213 |
| FCollada/FCDocument/FCDParameterAnimatable.hpp | 221 | 61-219 |
| FCollada/FCDocument/FCDPhysicsAnalyticalGeometry.cpp | 292 | 48-66, 79-97, 110-128, 143-162, 177-196, 210-236, 250-273, 279-292 |
| FCollada/FCDocument/FCDPhysicsMaterial.cpp | 43 | 16-21, 28-43 |
| FCollada/FCDocument/FCDPhysicsModel.cpp | 170 | 52-93, 162-170 |
| FCollada/FCDocument/FCDPhysicsModel.h | 171 | 51-53 |
| FCollada/FCDocument/FCDPhysicsModelInstance.cpp | 106 | 40-62, 70-106 |
| FCollada/FCDocument/FCDPhysicsRigidBody.cpp | 56 | 32-56 |
| FCollada/FCDocument/FCDPhysicsRigidBody.h | 85 | 40-59 |
| FCollada/FCDocument/FCDPhysicsRigidBodyInstance.cpp | 83 | 47-83 |
| FCollada/FCDocument/FCDPhysicsRigidBodyInstance.h | 133 | 42-53 |
| FCollada/FCDocument/FCDPhysicsRigidBodyParameters.cpp | 147 | 26-108, 118-128, 136-147 |
| FCollada/FCDocument/FCDPhysicsRigidBodyParameters.h | 239 | 51-90, 135-136 |
| FCollada/FCDocument/FCDPhysicsRigidConstraint.cpp | 116 | 25-41, 76-116 |
| FCollada/FCDocument/FCDPhysicsRigidConstraint.h | 318 | 49-77, 185, 195 |
| FCollada/FCDocument/FCDPhysicsRigidConstraintInstance.cpp | 57 | 35-49 |
| FCollada/FCDocument/FCDPhysicsScene.cpp | 103 | 29-33, 39-70, 90-103 |
| FCollada/FCDocument/FCDPhysicsScene.h | 150 | 49-52 |
| FCollada/FCDocument/FCDPhysicsShape.cpp | 241 | 27-115, 119-167, 193-240 |
| FCollada/FCDocument/FCDPhysicsShape.h | 217 | 52-65, 126, 142 |
| FCollada/FCDocument/FCDPlaceHolder.cpp | 124 | 21-49, 57-124 |
| FCollada/FCDocument/FCDPlaceHolder.h | 114 | 38-40 |
| FCollada/FCDocument/FCDSceneNode.cpp | 329 | 45-88, 91-117, 126-130, 151-162, 165-220, 223-233, 236-245, 248-329 |
| FCollada/FCDocument/FCDSceneNode.h | 302 | 55-75, 78, 103, 245, 271, 291, 295 |
| FCollada/FCDocument/FCDSceneNodeIterator.h | 89 | 75 |
| FCollada/FCDocument/FCDSceneNodeIterator.hpp | 129 | 24-47, 51-106, 119-122, 125-129 |
| FCollada/FCDocument/FCDSceneNodeTools.cpp | 157 | 23-121, 128-139 |
| FCollada/FCDocument/FCDSkinController.cpp | 213 | 66-115, 142-188 |
| FCollada/FCDocument/FCDSkinController.h | 250 | 41-200 |
| FCollada/FCDocument/FCDTargetedEntity.cpp | 74 | 28-36, 39-74 |
| FCollada/FCDocument/FCDTargetedEntity.h | 85 | 44 |
| FCollada/FCDocument/FCDTexture.cpp | 133 | 38-47, 55-63, 66-72, 75-117, 120-133 |
| FCollada/FCDocument/FCDTexture.h | 126 | 63-64 |
| FCollada/FCDocument/FCDTransform.cpp | 339 | 39-48, 63-277, 283-313, 327-339 |
| FCollada/FCDocument/FCDTransform.h | 648 | 48-66, 422 |
| FCollada/FCDocument/FCDVersion.cpp | 61 | 30-61 |
| FCollada/FCDocument/FCDVersion.h | 85 | 33-35, 77, 82 |
| FCollada/FCDocument/FCDocument.cpp | 385 | 128-132, 161-167, 221-297, 357-371 |
| FCollada/FCDocument/FCDocument.h | 525 | 151, 225 |
| FCollada/FCDocument/FCDocumentTools.cpp | 710 | 48-55, 73-135, 138-160, 172-173, 176, 186-193, 204-231, 234-702 |
| FCollada/FCollada.cpp | 169 | 67-79, 85-102, 159-168 |
| FCollada/FColladaPlugin.cpp | 247 | 68-247 |
| FCollada/FColladaPlugin.h | 266 | 36-69 |
| FCollada/FMath/FMAllocator.h | 73 | 61-65 |
| FCollada/FMath/FMAngleAxis.cpp | 36 | 25-35 |
| FCollada/FMath/FMArray.h | 661 | 48-50, 61, 66-69, 80-83, 98-101, 119-124, 148-203, 208, 217, 225-231, 258-297, 300, 306-354, 376-409, 418, 424, 427-433, 438-441, 457-503, 517-556, 571, 577-580, 599-619 |
| FCollada/FMath/FMArrayPointer.h | 224 | 181-186, 220 |
| FCollada/FMath/FMColor.cpp | 105 | 12-93 |
| FCollada/FMath/FMColor.h | 97 | 29-32, 53, 89, 95 |
| FCollada/FMath/FMFloat.h | 55 | 24-29 |
| FCollada/FMath/FMMatrix33.cpp | 129 | 11-19, 38-68, 73-76, 79-129 |
| FCollada/FMath/FMMatrix33.h | 168 | 23-26 |
| FCollada/FMath/FMMatrix44.cpp | 433 | 13-14, 43-49, 60-96, 107-176, 181-184, 187-190, 193-433 |
| FCollada/FMath/FMQuaternion.cpp | 274 | 18-40, 47, 71-176, 179-222, 225-273 |
| FCollada/FMath/FMQuaternion.h | 177 | 24-30, 78, 82, 85, 106 |
| FCollada/FMath/FMRandom.cpp | 38 | 24-37 |
| FCollada/FMath/FMSort.h | 127 | 20-26, 41-44, 49-53, 56-73, 89-92 |
| FCollada/FMath/FMTree.h | 704 | 35, 72-83, 87-135, 160-250, 254, 360-361, 365-369, 383, 394, 403-413, 418-478, 485-496, 500, 504-581, 593-618, 624-685 |
| FCollada/FMath/FMVector2.h | 146 | 140 |
| FCollada/FMath/FMVector3.cpp | 108 | 51-107 |
| FCollada/FMath/FMVector3.h | 262 | 26-169, 175, 181, 193, 199, 211, 223, 253, 257 |
| FCollada/FMath/FMVector4.h | 189 | 110, 116, 183 |
| FCollada/FMath/FMVolume.cpp | 57 | 14-55 |
| FCollada/FMath/FMath.h | 177 | 99, 116, 128, 140, 144-166 |
| FCollada/FUtils/FUBase64.cpp | 239 | 14-40, 43-238 |
| FCollada/FUtils/FUBoundingBox.cpp | 148 | 30-36, 52-68, 72-84, 94-148 |
| FCollada/FUtils/FUBoundingBox.h | 119 | 24-30, 76 |
| FCollada/FUtils/FUBoundingSphere.cpp | 192 | 13-23, 29-32, 48-192 |
| FCollada/FUtils/FUBoundingSphere.h | 111 | 24-30 |
| FCollada/FUtils/FUCrc32.cpp | 123 | 20-53, 69-79, 86-95, 108-113 |
| FCollada/FUtils/FUDaeEnum.cpp | 939 | 22-25, 30-52, 57-74, 79-94, 100-116, 121-142, 148-172, 177-193, 198-219, 224-261, 266-305, 310-938 |
| FCollada/FUtils/FUDaeEnum.h | 897 | 29-40, 60-68, 85-93, 114-132, 143-153, 170-182, 205-212, 231-249, 267-285, 303-322, 341-350, 369-725, 742-872 |
| FCollada/FUtils/FUDaeSyntax.h | 672 | 27-41, 357-363 |
| FCollada/FUtils/FUDateTime.h | 100 | 29-36 |
| FCollada/FUtils/FUError.cpp | 316 | 17-22, 32-72, 277-278, 298-316 |
| FCollada/FUtils/FUError.h | 332 | 231-238, 243-248, 292, 305-306 |
| FCollada/FUtils/FUErrorLog.cpp | 77 | 26-31, 37-40, 45-55 |
| FCollada/FUtils/FUEvent.h | 74 | 32, 47-50, 56-60, 67-71 |
| FCollada/FUtils/FUFileManager.cpp | 475 | 121-126, 129-135, 138-150, 187-205, 256-266, 269-294, 422-475 |
| FCollada/FUtils/FUObject.cpp | 42 | 29-42 |
| FCollada/FUtils/FUObject.h | 541 | 35, 40, 85-92, 106, 112-117, 153, 167-179, 184-191, 199-204, 219-223, 245, 248-257, 304-308, 314-323, 349-356, 361-368, 372-380, 404-410, 416-423, 452-458, 462, 534-538 |
| FCollada/FUtils/FUObjectType.cpp | 29 | 12-29 |
| FCollada/FUtils/FUObjectType.h | 121 | 33, 55, 88, 102-103 |
| FCollada/FUtils/FUParameter.h | 171 | 120 |
| FCollada/FUtils/FUParameterizable.h | 102 | 29-33, 40, 54, 69, 81, 86, 91, 96 |
| FCollada/FUtils/FUString.h | 611 | 45, 48, 52, 55, 59-63, 69-86, 91-96, 101-102, 112, 117, 124-129, 133-136, 142-145, 149-156, 163-180, 185-199, 203-208, 211-407, 417-424, 433-437, 446-450, 460, 477-482, 488-494, 500-506, 545-548 |
| FCollada/FUtils/FUStringBuilder.cpp | 86 | 29-53 |
| FCollada/FUtils/FUStringBuilder.h | 231 | 38-40, 129, 187, 222 |
| FCollada/FUtils/FUStringBuilder.hpp | 362 | 26-57, 70-114, 122-169, 173-196, 199-231, 289-362 |
| FCollada/FUtils/FUStringConversion.cpp | 301 | 77-84, 129-150, 210-241 |
| FCollada/FUtils/FUStringConversion.h | 440 | 386 |
| FCollada/FUtils/FUStringConversion.hpp | 595 | 14-16, 22-25, 29-53, 57-129, 133-154, 157-211, 214-253, 257-281, 284-301, 306-326, 330-345, 349-364, 368-383, 387-433, 436-482, 485-580, 583-590 |
| FCollada/FUtils/FUTracker.cpp | 55 | 18-51 |
| FCollada/FUtils/FUTracker.h | 382 | 35, 39, 95, 99, 102-106, 109-166, 185, 188, 191-198, 237-241, 247-256, 263-279, 282-289, 293-297, 302-311, 316-326, 330, 337, 344, 355-360, 363-370, 375-379 |
| FCollada/FUtils/FUUniqueStringMap.cpp | 95 | 13-90 |
| FCollada/FUtils/FUUniqueStringMap.h | 54 | 28-31, 38 |
| FCollada/FUtils/FUUri.cpp | 727 | 30-214, 251-632, 657, 665-727 |
| FCollada/FUtils/FUUri.h | 202 | 39-46, 49-67 |
| FCollada/FUtils/FUXmlParser.cpp | 212 | 23-43, 70-83, 132-144, 147-151, 154-170, 173-186, 190-195, 198-212 |
| FCollada/FUtils/FUXmlWriter.cpp | 259 | 17-55, 73-88, 135-161, 172-187, 194-200, 218-252 |
| FCollada/FUtils/FUXmlWriter.h | 195 | 81 |
| FCollada/FUtils/Platforms.h | 229 | 111, 204-206 |
| FColladaPlugins/FArchiveXML/FAXAnimationExport.cpp | 677 | 22-28, 112-152, 176-233, 271-293, 323-498 |
| FColladaPlugins/FArchiveXML/FAXAnimationImport.cpp | 642 | 27-359, 362-375, 397-478, 504-643 |
| FColladaPlugins/FArchiveXML/FAXCameraExport.cpp | 76 | 15-76 |
| FColladaPlugins/FArchiveXML/FAXCameraImport.cpp | 96 | 15-93 |
| FColladaPlugins/FArchiveXML/FAXColladaParser.cpp | 550 | 23-39, 61-98, 103-145, 163-176, 179-191, 194-206, 211-409, 412-434, 444-493, 503-507, 510-516 |
| FColladaPlugins/FArchiveXML/FAXColladaWriter.cpp | 419 | 20-405 |
| FColladaPlugins/FArchiveXML/FAXControllerExport.cpp | 159 | 20-159 |
| FColladaPlugins/FArchiveXML/FAXControllerImport.cpp | 351 | 20-337 |
| FColladaPlugins/FArchiveXML/FAXEntityExport.cpp | 213 | 24-129, 161-183, 186-213 |
| FColladaPlugins/FArchiveXML/FAXEntityImport.cpp | 299 | 25-42, 45-71, 79-200, 230-299 |
| FColladaPlugins/FArchiveXML/FAXGeometryExport.cpp | 384 | 23-128, 131-383 |
| FColladaPlugins/FArchiveXML/FAXGeometryImport.cpp | 729 | 22-190, 193-555, 558-729 |
| FColladaPlugins/FArchiveXML/FAXImportLinking.cpp | 590 | 42-113, 149-261, 264-508, 541-563, 566-589 |
| FColladaPlugins/FArchiveXML/FAXInstanceExport.cpp | 283 | 67-283 |
| FColladaPlugins/FArchiveXML/FAXInstanceImport.cpp | 456 | 31-196, 225-434, 442-453 |
| FColladaPlugins/FArchiveXML/FAXLightExport.cpp | 106 | 16-106 |
| FColladaPlugins/FArchiveXML/FAXLightImport.cpp | 185 | 16-185 |
| FColladaPlugins/FArchiveXML/FAXMaterialExport.cpp | 1138 | 31-1082, 1085-1138 |
| FColladaPlugins/FArchiveXML/FAXMaterialImport.cpp | 1789 | 33-195, 198-753, 756-1505, 1508-1789 |
| FColladaPlugins/FArchiveXML/FAXPhysicsExport.cpp | 331 | 27-60, 74-331 |
| FColladaPlugins/FArchiveXML/FAXPhysicsImport.cpp | 926 | 27-925 |
| FColladaPlugins/FArchiveXML/FAXSceneExport.cpp | 373 | 39-166, 177-290, 300-373 |
| FColladaPlugins/FArchiveXML/FAXSceneImport.cpp | 433 | 24-296, 307-431 |
| FColladaPlugins/FArchiveXML/FAXStructures.h | 252 | 128-146, 149-162, 176 |
| FColladaPlugins/FArchiveXML/FArchiveXML.cpp | 1095 | 87, 112-165, 374-448, 537-1082 |
| FColladaPlugins/FArchiveXML/FArchiveXML.h | 585 | 76, 413-418 |

## Files of which no line is modelled

* `FCollada`: DLLEntry.cpp (56), FCollada.h (200), StdAfx.cpp (9), StdAfx.h (14)
* `FCollada/FCDocument`: FCDAnimationChannel.cpp (57), FCDAnimationChannel.h (96), FCDAnimationClip.cpp (85), FCDAnimationClipTools.cpp (36), FCDAnimationClipTools.h (26), FCDAnimationCurveTools.h (60), FCDAnimationKey.cpp (65), FCDAnimationMultiCurve.h (163), FCDControllerTools.h (42), FCDEffectParameterFactory.h (43), FCDEffectTools.h (162), FCDEmitter.h (66), FCDEmitterInstance.cpp (36), FCDEmitterInstance.h (55), FCDEmitterObject.cpp (9), FCDEmitterObject.h (30), FCDEmitterParticle.cpp (15), FCDEmitterParticle.h (18), FCDExternalReferenceManager.h (96), FCDForceDeflector.cpp (12), FCDForceDeflector.h (17), FCDForceDrag.cpp (13), FCDForceDrag.h (17), FCDForceField.h (69), FCDForceGravity.cpp (13), FCDForceGravity.h (17), FCDForcePBomb.cpp (13), FCDForcePBomb.h (17), FCDForceTyped.h (12), FCDForceWind.cpp (13), FCDForceWind.h (17), FCDGeometryNURBSSurface.cpp (9), FCDGeometryNURBSSurface.h (15), FCDGeometrySource.cpp (81), FCDImage.h (132), FCDLibrary.cpp (132), FCDLightTools.h (44), FCDObject.cpp (29), FCDParticleEmitter.h (19), FCDParticleModifier.cpp (10), FCDParticleModifier.h (25), FCDPhysicsAnalyticalGeometry.h (392), FCDPhysicsForceFieldInstance.cpp (46), FCDPhysicsForceFieldInstance.h (68), FCDPhysicsMaterial.h (87), FCDPhysicsModelInstance.h (111), FCDPhysicsRigidConstraintInstance.h (90), FCDSceneNodeIterator.cpp (17), FCDSceneNodeTools.h (52), FCDocumentTools.h (41)
* `FCollada/FColladaTest`: FCTest.cpp (112), FCTestAnimation.cpp (110), FCTestArchiving.cpp (53), FCTestController.cpp (207), FCTestGeometryPolygonsTools.cpp (102), FCTestParameters.cpp (204), FCTestSceneGraph.cpp (80)
* `FCollada/FColladaTest/FCTestAssetManagement`: FCTAMCrossCloning.cpp (40)
* `FCollada/FColladaTest/FCTestExportImport`: FCTEIAnimation.cpp (119), FCTEICamera.cpp (82), FCTEIEmitter.cpp (85), FCTEIExtra.cpp (119), FCTEIGeometry.cpp (404), FCTEILight.cpp (80), FCTEIMaterial.cpp (372), FCTEIPhysics.cpp (249), FCTEIVisualScene.cpp (385), FCTestExportImport.cpp (315), FCTestExportImport.h (114)
* `FCollada/FColladaTest/FCTestXRef`: FCTestXRef.cpp (29), FCTestXRefAcyclic.cpp (78), FCTestXRefSimple.cpp (116), FCTestXRefTree.cpp (115)
* `FCollada/FColladaTest/FMath`: FMArrayTest.cpp (74), FMQuaternionTest.cpp (118), FMTreeTest.cpp (195)
* `FCollada/FColladaTest/FUtils`: FUBoundingTest.cpp (119), FUCrc32Test.cpp (60), FUEventTest.cpp (191), FUFileManagerTest.cpp (282), FUObjectTest.cpp (232), FUStringBuilderTest.cpp (76), FUStringConversionTest.cpp (96), FUStringTest.cpp (92), FUTestBed.cpp (55), FUTestBed.h (154), FUUniqueStringMapTest.cpp (166)
* `FCollada/FMath`: FMAllocator.cpp (38), FMAngleAxis.h (43), FMInteger.h (51), FMInterpolation.cpp (12), FMInterpolation.h (36), FMLookAt.cpp (29), FMLookAt.h (47), FMMatrix44.h (240), FMRandom.h (78), FMSkew.cpp (29), FMSkew.h (44), FMVolume.h (69)
* `FCollada/FUtils`: FUAssert.cpp (65), FUAssert.h (66), FUBase64.h (39), FUCrc32.h (44), FUDaeEnumSyntax.h (304), FUDateTime.cpp (67), FUDebug.cpp (145), FUDebug.h (85), FUErrorLog.h (65), FUFile.cpp (132), FUFile.h (101), FUFileManager.h (198), FULogFile.cpp (102), FULogFile.h (77), FUParameterizable.cpp (27), FUPlugin.h (45), FUPluginManager.cpp (234), FUPluginManager.h (118), FUSingleton.h (61), FUString.cpp (9), FUXmlDocument.cpp (119), FUXmlDocument.h (65), FUXmlParser.h (47), FUtils.h (133)
* `FColladaPlugins/FArchiveXML`: FAXColladaParser.h (78), FAXColladaWriter.h (313), FAXEmitterExport.cpp (30), FAXEmitterImport.cpp (37), FAXForceFieldExport.cpp (35), FAXForceFieldImport.cpp (39)
